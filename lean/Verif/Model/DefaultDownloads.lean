import Verif.Model.Download

/-!
# `/repo/examples/scenes/src/download/default_downloads.rs`: the default files

The table is copied from the code (`default_downloads.rs:28-371`).
-/

namespace Velato

/-- `google_noto_asset!` (`default_downloads.rs:9-24`). -/
def googleNotoAsset (row : String × String × Nat) : DownloadItem where
  name := row.1.toList
  url := "https://fonts.gstatic.com/s/e/notoemoji/latest/".toList ++ row.2.1.toList
    ++ "/lottie.json".toList
  builtin := some row.2.2

/-- The arguments of the macro (`default_downloads.rs:28-371`). -/
def defaultRows : List (String × String × Nat) := [
  ("Smile", "1f600", 37328),
  ("Smile-with-big-eyes", "1f603", 48097),
  ("Grin", "1f604", 48154),
  ("Grinning", "1f601", 70876),
  ("Laughing", "1f606", 59130),
  ("Grin-sweat", "1f605", 67751),
  ("Joy", "1f602", 59124),
  ("Rofl", "1f923", 78237),
  ("Loudly-crying", "1f62d", 109511),
  ("Wink", "1f609", 27737),
  ("Kissing", "1f617", 29240),
  ("Kissing-smiling-eyes", "1f619", 13200),
  ("Kissing-closed-eyes", "1f61a", 20588),
  ("Kissing-heart", "1f618", 64904),
  ("Heart-face", "1f970", 58353),
  ("Heart-eyes", "1f60d", 42336),
  ("Star-struck", "1f929", 46757),
  ("Partying-face", "1f973", 67877),
  ("Melting", "1fae0", 155514),
  ("Upside-down-face", "1f643", 12177),
  ("Slightly-happy", "1f642", 24463),
  ("Happy-cry", "1f972", 30188),
  ("Holding-back-tears", "1f979", 75974),
  ("Blush", "1f60a", 30013),
  ("Warm-smile", "263a_fe0f", 25877),
  ("Relieved", "1f60c", 21131),
  ("Smirk", "1f60f", 31466),
  ("Sleep", "1f634", 24420),
  ("Sleepy", "1f62a", 33013),
  ("Drool", "1f924", 39367),
  ("Yum", "1f60b", 38167),
  ("Stuck-out-tongue", "1f61b", 40520),
  ("Squinting-tongue", "1f61d", 51166),
  ("Winky-tongue", "1f61c", 74487),
  ("Zany-face", "1f92a", 69242),
  ("Woozy", "1f974", 32633),
  ("Pensive", "1f614", 18003),
  ("Pleading", "1f97a", 45677),
  ("Grimacing", "1f62c", 60270),
  ("Expressionless", "1f611", 15581),
  ("Neutral-face", "1f610", 22574),
  ("Mouth-none", "1f636", 21638),
  ("Face-in-clouds", "1f636_200d_1f32b_fe0f", 135831),
  ("Dotted-line-face", "1fae5", 15473),
  ("Zipper-face", "1f910", 79614),
  ("Salute", "1fae1", 50214),
  ("Thinking-face", "1f914", 68027),
  ("Shushing-face", "1f92b", 60687),
  ("Hand-over-mouth", "1fae2", 30548),
  ("Smiling-eyes-with-hand-over-mouth", "1f92d", 58552),
  ("Yawn", "1f971", 40591),
  ("Hug-face", "1f917", 80181),
  ("Peeking", "1fae3", 117202),
  ("Screaming", "1f631", 90226),
  ("Raised-eyebrow", "1f928", 31912),
  ("Monocle", "1f9d0", 67304),
  ("Unamused", "1f612", 30060),
  ("Rolling-eyes", "1f644", 29512),
  ("Exhale", "1f62e_200d_1f4a8", 57245),
  ("Triumph", "1f624", 128406),
  ("Angry", "1f620", 33672),
  ("Rage", "1f621", 46289),
  ("Cursing", "1f92c", 235182),
  ("Sad", "1f61e", 30944),
  ("Sweat", "1f613", 35718),
  ("Worried", "1f61f", 19906),
  ("Concerned", "1f625", 39143),
  ("Cry", "1f622", 47018),
  ("Big-frown", "2639_fe0f", 17600),
  ("Frown", "1f641", 15949),
  ("Diagonal-mouth", "1fae4", 27493),
  ("Slightly-frowning", "1f615", 25699),
  ("Anxious-with-sweat", "1f630", 31920),
  ("Scared", "1f628", 23708),
  ("Anguished", "1f627", 22195),
  ("Gasp", "1f626", 15110),
  ("Mouth-open", "1f62e", 18749),
  ("Surprised", "1f62f", 27156),
  ("Astonished", "1f632", 21560),
  ("Flushed", "1f633", 39206),
  ("Mind-blown", "1f92f", 143616),
  ("Scrunched-mouth", "1f616", 25776),
  ("Scrunched-eyes", "1f623", 35178),
  ("Weary", "1f629", 43145),
  ("Distraught", "1f62b", 41299),
  ("X-eyes", "1f635", 27858),
  ("Dizzy-face", "1f635_200d_1f4ab", 37987),
  ("Shaking-face", "1fae8", 62846),
  ("Cold-face", "1f976", 105845),
  ("Hot-face", "1f975", 66152),
  ("Sick", "1f922", 38007),
  ("Vomit", "1f92e", 113083),
  ("Sneeze", "1f927", 62632),
  ("Thermometer-face", "1f912", 35011),
  ("Bandage-face", "1f915", 24897),
  ("Mask", "1f637", 26028),
  ("Liar", "1f925", 110222),
  ("Halo", "1f607", 47770),
  ("Cowboy", "1f920", 68918),
  ("Money-face", "1f911", 62491),
  ("Nerd-face", "1f913", 34888),
  ("Sunglasses-face", "1f60e", 25407),
  ("Disguise", "1f978", 49569),
  ("Clown", "1f921", 46553),
  ("Imp-smile", "1f608", 43402),
  ("Imp-frown", "1f47f", 39216),
  ("Ghost", "1f47b", 200747),
  ("Jack-o-lantern", "1f383", 62686),
  ("Poop", "1f4a9", 257521),
  ("Robot", "1f916", 187153),
  ("Alien", "1f47d", 113419),
  ("Moon-face-first-quarter", "1f31b", 36591),
  ("Moon-face-last-quarter", "1f31c", 15486),
  ("Sun-with-face", "1f31e", 18283),
  ("Fire", "1f525", 29358),
  ("100", "1f4af", 66142),
  ("Glowing-star", "1f31f", 73203),
  ("Sparkles", "2728", 15584),
  ("Collision", "1f4a5", 87831),
  ("Party-popper", "1f389", 67875),
  ("See-no-evil-monkey", "1f648", 52125),
  ("Hear-no-evil-monkey", "1f649", 66440),
  ("Speak-no-evil-monkey", "1f64a", 76392),
  ("Smiley-cat", "1f63a", 43360),
  ("Smile-cat", "1f638", 66070),
  ("Joy-cat", "1f639", 86244),
  ("Heart-eyes-cat", "1f63b", 54362),
  ("Smirk-cat", "1f63c", 46333),
  ("Kissing-cat", "1f63d", 34296),
  ("Scream-cat", "1f640", 90268),
  ("Crying-cat-face", "1f63f", 105822),
  ("Pouting-cat", "1f63e", 47069),
  ("Red-heart", "2764_fe0f", 8439),
  ("Orange-heart", "1f9e1", 8378),
  ("Yellow-heart", "1f49b", 8382),
  ("Green-heart", "1f49a", 8458),
  ("Light-blue-heart", "1fa75", 8456),
  ("Blue-heart", "1f499", 8458),
  ("Purple-heart", "1f49c", 8458),
  ("Brown-heart", "1f90e", 8458),
  ("Black-heart", "1f5a4", 8458),
  ("Grey-heart", "1fa76", 8470),
  ("White-heart", "1f90d", 8380),
  ("Pink-heart", "1fa77", 8431),
  ("Cupid", "1f498", 79374),
  ("Gift-heart", "1f49d", 152189),
  ("Sparkling-heart", "1f496", 34772),
  ("Heart-grow", "1f497", 12631),
  ("Beating-heart", "1f493", 26352),
  ("Revolving-hearts", "1f49e", 31191),
  ("Two-hearts", "1f495", 12457),
  ("Love-letter", "1f48c", 66873),
  ("Heart-exclamation-point", "2763_fe0f", 19995),
  ("Bandaged-heart", "2764_fe0f_200d_1fa79", 100250),
  ("Broken-heart", "1f494", 87260),
  ("Fire-heart", "2764_fe0f_200d_1f525", 64140),
  ("Kiss", "1f48b", 11896),
  ("Footprints", "1f463", 21917),
  ("Anatomical-heart", "1fac0", 67731),
  ("Blood", "1fa78", 13119),
  ("Microbe", "1f9a0", 65924),
  ("Skull", "1f480", 226657),
  ("Eyes", "1f440", 28242),
  ("Eye", "1f441_fe0f", 44364),
  ("Biting-lip", "1fae6", 18180),
  ("Leg-mechanical", "1f9bf", 42593),
  ("Arm-mechanical", "1f9be", 51190),
  ("Muscle", "1f4aa", 23340),
  ("Muscle-1", "1f4aa_1f3fb", 23476),
  ("Muscle-2", "1f4aa_1f3fc", 23516),
  ("Muscle-3", "1f4aa_1f3fd", 23518),
  ("Muscle-4", "1f4aa_1f3fe", 23521),
  ("Muscle-5", "1f4aa_1f3ff", 23517),
  ("Clap", "1f44f", 38150),
  ("Clap-1", "1f44f_1f3fb", 38819),
  ("Clap-2", "1f44f_1f3fc", 38824),
  ("Clap-3", "1f44f_1f3fd", 38855),
  ("Clap-4", "1f44f_1f3fe", 38745),
  ("Clap-5", "1f44f_1f3ff", 38848),
  ("Thumbs-up", "1f44d", 57963),
  ("Thumbs-up-1", "1f44d_1f3fb", 58034),
  ("Thumbs-up-2", "1f44d_1f3fc", 58034),
  ("Thumbs-up-3", "1f44d_1f3fd", 58044),
  ("Thumbs-up-4", "1f44d_1f3fe", 58035),
  ("Thumbs-up-5", "1f44d_1f3ff", 58044),
  ("Thumbs-down", "1f44e", 28607),
  ("Thumbs-down-1", "1f44e_1f3fb", 28664),
  ("Thumbs-down-2", "1f44e_1f3fc", 28665),
  ("Thumbs-down-3", "1f44e_1f3fd", 28673),
  ("Thumbs-down-4", "1f44e_1f3fe", 28665),
  ("Thumbs-down-5", "1f44e_1f3ff", 28673),
  ("Raising-hands", "1f64c", 81851),
  ("Raising-hands-1", "1f64c_1f3fb", 81925),
  ("Raising-hands-2", "1f64c_1f3fc", 81929),
  ("Raising-hands-3", "1f64c_1f3fd", 81931),
  ("Raising-hands-4", "1f64c_1f3fe", 81927),
  ("Raising-hands-5", "1f64c_1f3ff", 81925),
  ("Wave", "1f44b", 14645),
  ("Wave-1", "1f44b_1f3fb", 14734),
  ("Wave-2", "1f44b_1f3fc", 14739),
  ("Wave-3", "1f44b_1f3fd", 14739),
  ("Wave-4", "1f44b_1f3fe", 14740),
  ("Wave-5", "1f44b_1f3ff", 14733),
  ("Victory", "270c_fe0f", 68888),
  ("Victory-1", "270c_1f3fb", 69086),
  ("Victory-2", "270c_1f3fc", 69069),
  ("Victory-3", "270c_1f3fd", 69077),
  ("Victory-4", "270c_1f3fe", 69061),
  ("Victory-5", "270c_1f3ff", 69054),
  ("Crossed-fingers", "1f91e", 33723),
  ("Crossed-fingers-1", "1f91e_1f3fb", 33930),
  ("Crossed-fingers-2", "1f91e_1f3fc", 33916),
  ("Crossed-fingers-3", "1f91e_1f3fd", 33916),
  ("Crossed-fingers-4", "1f91e_1f3fe", 33909),
  ("Crossed-fingers-5", "1f91e_1f3ff", 33903),
  ("Index-finger", "261d_fe0f", 21113),
  ("Index-finger-1", "261d_1f3fb", 21277),
  ("Index-finger-2", "261d_1f3fc", 21267),
  ("Index-finger-3", "261d_1f3fd", 21271),
  ("Index-finger-4", "261d_1f3fe", 21262),
  ("Index-finger-5", "261d_1f3ff", 21256),
  ("Folded-hands", "1f64f", 18592),
  ("Folded-hands-1", "1f64f_1f3fb", 18658),
  ("Folded-hands-2", "1f64f_1f3fc", 18676),
  ("Folded-hands-3", "1f64f_1f3fd", 18682),
  ("Folded-hands-4", "1f64f_1f3fe", 18682),
  ("Folded-hands-5", "1f64f_1f3ff", 18670),
  ("Dancer-woman", "1f483", 364759),
  ("Dancer-woman-1", "1f483_1f3fb", 364030),
  ("Dancer-woman-2", "1f483_1f3fc", 364036),
  ("Dancer-woman-3", "1f483_1f3fd", 365020),
  ("Dancer-woman-4", "1f483_1f3fe", 364037),
  ("Dancer-woman-5", "1f483_1f3ff", 364035),
  ("Rose", "1f339", 45174),
  ("Wilted-flower", "1f940", 37881),
  ("Fallen-leaf", "1f342", 45536),
  ("Plant", "1f331", 53145),
  ("Luck", "1f340", 70266),
  ("Snowflake", "2744_fe0f", 138664),
  ("Volcano", "1f30b", 116692),
  ("Sunrise", "1f305", 51088),
  ("Sunrise-over-mountains", "1f304", 29561),
  ("Rainbow", "1f308", 13837),
  ("Wind-face", "1f32c_fe0f", 135084),
  ("Electricity", "26a1", 89096),
  ("Dizzy", "1f4ab", 80643),
  ("Comet", "2604_fe0f", 170252),
  ("Globe-showing-europe-africa", "1f30d", 188658),
  ("Unicorn", "1f984", 278449),
  ("Lizard", "1f98e", 104721),
  ("Dragon", "1f409", 258884),
  ("T-rex", "1f996", 131948),
  ("Turtle", "1f422", 55887),
  ("Snake", "1f40d", 97973),
  ("Frog", "1f438", 108606),
  ("Rabbit", "1f407", 81000),
  ("Rat", "1f400", 124290),
  ("Dog", "1f415", 98235),
  ("Pig", "1f416", 143547),
  ("Racehorse", "1f40e", 85914),
  ("Donkey", "1facf", 105494),
  ("Ox", "1f402", 76491),
  ("Goat", "1f410", 248917),
  ("Kangaroo", "1f998", 124870),
  ("Tiger", "1f405", 428543),
  ("Monkey", "1f412", 136109),
  ("Chipmunk", "1f43f_fe0f", 144799),
  ("Otter", "1f9a6", 94172),
  ("Bat", "1f987", 33394),
  ("Rooster", "1f413", 88968),
  ("Hatching-chick", "1f423", 53445),
  ("Baby-chick", "1f424", 30711),
  ("Hatched-chick", "1f425", 50066),
  ("Eagle", "1f985", 72897),
  ("Peace", "1f54a_fe0f", 176763),
  ("Goose", "1fabf", 185187),
  ("Peacock", "1f99a", 167783),
  ("Seal", "1f9ad", 357487),
  ("Dolphin", "1f42c", 81544),
  ("Whale", "1f433", 91653),
  ("Blowfish", "1f421", 124208),
  ("Crab", "1f980", 160764),
  ("Octopus", "1f419", 234509),
  ("Jellyfish", "1fabc", 97671),
  ("Snail", "1f40c", 49014),
  ("Ant", "1f41c", 100806),
  ("Mosquito", "1f99f", 88334),
  ("Bee", "1f41d", 482250),
  ("Butterfly", "1f98b", 249980),
  ("Paw Prints", "1f43e", 17179),
  ("Tomato", "1f345", 142308),
  ("Popcorn", "1f37f", 135307),
  ("Hot-beverage", "2615", 36778),
  ("Clinking-beer-mugs", "1f37b", 112052),
  ("Clinking-glasses", "1f942", 94364),
  ("Bottle-with-popping-cork", "1f37e", 37645),
  ("Wine-glass", "1f377", 60942),
  ("Tropical-drink", "1f379", 85325),
  ("Police-car-light", "1f6a8", 65174),
  ("Flying-saucer", "1f6f8", 153261),
  ("Rocket", "1f680", 81575),
  ("Airplane-departure", "1f6eb", 31939),
  ("Airplane-arrival", "1f6ec", 40894),
  ("Roller-coaster", "1f3a2", 66382),
  ("Confetti-ball", "1f38a", 122718),
  ("Balloon", "1f388", 14095),
  ("Birthday-cake", "1f382", 93106),
  ("Fireworks", "1f386", 110210),
  ("Mirror-ball", "1faa9", 172207),
  ("Soccer-ball", "26bd", 41860),
  ("Direct-hit", "1f3af", 45947),
  ("Violin", "1f3bb", 36626),
  ("Drum", "1f941", 37285),
  ("Maracas", "1fa87", 53870),
  ("Battery-full", "1f50b", 64179),
  ("Battery-low", "1faab", 145891),
  ("Money-with-wings", "1f4b8", 97230),
  ("Light-bulb", "1f4a1", 23436),
  ("Graduation-cap", "1f393", 229903),
  ("Umbrella", "2602_fe0f", 27242),
  ("Gem-stone", "1f48e", 62646),
  ("Alarm-clock", "23f0", 36409),
  ("Bellhop-bell", "1f6ce_fe0f", 26841),
  ("Bell", "1f514", 36717),
  ("Aries", "2648", 82667),
  ("Taurus", "2649", 82769),
  ("Gemini", "264a", 106146),
  ("Cancer", "264b", 89628),
  ("Leo", "264c", 88502),
  ("Virgo", "264d", 101944),
  ("Libra", "264e", 81824),
  ("Scorpio", "264f", 101492),
  ("Sagittarius", "2650", 94578),
  ("Capricorn", "2651", 101304),
  ("Aquarius", "2652", 111335),
  ("Pisces", "2653", 106574),
  ("Ophiuchus", "26ce", 100303),
  ("Exclamation-double", "203c_fe0f", 26663),
  ("Cross-mark", "274c", 7292),
  ("Musical-notes", "1f3b6", 12828),
  ("Check-mark", "2705", 15925),
  ("Cool", "1f192", 19755),
  ("Plus-sign", "2795", 33464),
  ("Chequered-flag", "1f3c1", 328109)]

/-- `default_downloads` (`default_downloads.rs:26-373`). -/
def defaultDownloads : List DownloadItem := defaultRows.map googleNotoAsset

end Velato
