/-!
# Panics and other abnormal ends of executions

File names without a directory are in `/repo/src/runtime` (`render.rs`), `/repo/src/runtime/model`
(`animated.rs`, `value.rs`, `spline.rs`) or `/repo/src/import` (`converters.rs`).
-/

namespace Velato

/-- The places at which the modelled Rust code can panic.  Each constructor cites its lines. -/
inductive PanicSite where
  /-- slice range out of bounds (`render.rs:332,333,376,386-388,393-394,484-485`) -/
  | sliceIndex
  /-- `usize` subtraction underflow (`render.rs:360,362`, `converters.rs:728`) -/
  | underflow
  /-- kurbo's debug assertion that a path begins with `MoveTo` (`render.rs:394-397`) -/
  | bezPathStart
  /-- `num_points * 2` overflow or `Vec::with_capacity` capacity overflow
  (`animated.rs:203,206`) -/
  | starCapacity
  /-- `unimplemented!` for an asset that is not a precomposition (`converters.rs:103`) -/
  | unsupportedAsset
  /-- `todo!()` (`converters.rs:211,243`) -/
  | splitRotation
  /-- `todo!("split rotation")` for a missing rotation (`converters.rs:213`) -/
  | missingRotation
  /-- `todo!("split position")` (`converters.rs:252`) -/
  | splitPosition
  /-- `unimplemented!()` for `Add` and `HardMix` (`converters.rs:805-806`) -/
  | unknownBlendMode
  /-- `keyframe.value[0]` on an empty value (`converters.rs:819`) -/
  | emptyKeyframe
  /-- `assert!(arr.len() == 1)` (`converters.rs:367,374`) -/
  | handleArray
  deriving DecidableEq, Repr, Inhabited

/-- Why an execution of the modelled code does not return a value.  Used at `render.rs:92-175` for
the recursion. -/
inductive Fault where
  | panic (site : PanicSite)
  /-- the recursion budget ran out (only the unbounded recursion `render_layer` has one) -/
  | fuel
  deriving DecidableEq, Repr, Inhabited

end Velato
