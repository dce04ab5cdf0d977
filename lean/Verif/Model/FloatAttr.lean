import Verif.Model.Float
import Verif.Model.Attr

/-!
# The number types of the `number` attribute, bit by bit
-/

namespace Verif.Float

/-- `f32` and `f64` as the types of `build_from_meta::<f32>` and `build_from_meta::<f64>` (`number/mod.rs` L46-49): `FromStr`,
`PartialOrd`, and `ToTokens`, which panics for floats that are not finite (`quote` calls `Literal::f32_suffixed`,
`Literal::f64_suffixed`). -/
def ty (F : Fmt) : Attr.NumTy (Float F) where
  fromStr := fromStr F
  pcmp := pcmp
  literal x := decide (x.mag < F.inf)

end Verif.Float
