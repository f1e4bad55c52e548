import Verif.Model.Dfs
import Verif.Model.SplMath

/-
Model of `dfs_precise_number.rs` l.179-191, the conversion to the 12-decimal spl-math type.
-/

namespace Verif
namespace Dfs

/-- `to_spl_precise_number`, l.179-191; the result is a raw 12-decimal value. -/
def toSpl (v : Nat) : Res Nat := do
  let whole ← toImprecise v
  let splNumber ← Spl.new whole
  let dec ← asUint U128 (v % ONE)
  let decScaled ← Spl.new dec
  let one ← Spl.new ONE
  let decimals ← Spl.div decScaled one
  Spl.add splNumber decimals

end Dfs
end Verif
