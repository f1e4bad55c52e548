import Verif.Model.SwapCurve
import Verif.Lemmas.State

/-
C94: equality and copies of curves.
-/

namespace Verif
namespace Props
open State

/-- The type names the calculator. -/
def Matched (c : SwapCurve) : Prop :=
  match c.calculator with
  | .constantProduct => c.curve_type = .ConstantProduct
  | .constantPrice _ => c.curve_type = .ConstantPrice
  | .stable _ => c.curve_type = .Stable
  | .offset _ => c.curve_type = .Offset
  | .linear _ => c.curve_type = .LinearPrice

/-- C94.  The byte of a curve type is read back as that type, and no other byte is. -/
theorem C94_types (b : UInt8) (t : CurveType) : CurveType.tryFrom b = .ok t ↔ b = t.tag := by
  unfold CurveType.tryFrom
  constructor
  · intro h
    repeat' split at h
    all_goals first
      | (cases h; assumption)
      | cases h
  · rintro rfl
    cases t <;> rfl

theorem matched_pack {c : SwapCurve} (h : Matched c) (old : List UInt8) :
    c.packIntoSlice old = packCurve c.calculator old := by
  obtain ⟨t, k⟩ := c
  cases k <;> (cases (show t = _ from h); rfl)

theorem unpack_matches (l : List UInt8) (k : Curve) :
    unpackCurve l = .ok k ↔ ∃ c, SwapCurve.unpackFromSlice l = .ok c ∧ c.calculator = k ∧ Matched c := by
  unfold unpackCurve SwapCurve.unpackFromSlice CurveType.tryFrom
  simp only []
  constructor
  · intro h
    repeat' split at h
    all_goals first
      | (cases h; simp only [*, if_true]; exact ⟨_, rfl, rfl, rfl⟩)
      | cases h
  · rintro ⟨c, h, rfl, _⟩
    repeat' split
    all_goals first
      | (simp only [*, if_true, if_false] at h; cases h; rfl)
      | (simp only [*, if_false] at h; cases h)

/-- C94.  Whatever curve is read from an account, made for a new pool or taken by default has the calculator
its type names, so the single field of the model loses nothing. -/
theorem C94_matched (l : List UInt8) (p : UInt64) (k : LinearPriceCurve) :
    (∀ c, SwapCurve.unpackFromSlice l = .ok c → Matched c) ∧ Matched .default ∧
    Matched (.newConstantPrice p) ∧ Matched (.newLinearPrice k) := by
  refine ⟨fun c h => ?_, rfl, rfl, rfl⟩
  unfold SwapCurve.unpackFromSlice at h
  cases e : CurveType.tryFrom (byteAt l 0) with
  | error _ => rw [e] at h; cases h
  | ok t =>
    rw [e] at h
    cases h
    cases t <;> rfl

/-- C94.  Storing such a curve over anything and reading it back gives the same curve. -/
theorem C94_round_trip (c : SwapCurve) (h : Matched c) (old : List UInt8) :
    SwapCurve.unpackFromSlice (c.packIntoSlice old) = .ok c := by
  rw [matched_pack h]
  obtain ⟨c', h1, h2, h3⟩ := (unpack_matches _ _).1 (unpack_packCurve c.calculator old)
  rw [h1]
  obtain ⟨t, k⟩ := c
  obtain ⟨t', k'⟩ := c'
  cases (show k' = k from h2)
  cases k <;> (cases (show t = _ from h); cases (show t' = _ from h3); rfl)

/-- How many bytes the parameters of a curve take. -/
def width : CurveType → Nat
  | .ConstantProduct => 0
  | .ConstantPrice => 8
  | .Stable => 8
  | .Offset => 8
  | .LinearPrice => 32

/-- C94.  Storing such a curve neither lengthens nor shortens the 33 bytes there, and leaves those after the
parameters as they were. -/
theorem C94_in_place (c : SwapCurve) (h : Matched c) (old : List UInt8) (ho : old.length = 33) :
    (c.packIntoSlice old).length = 33 ∧
    (c.packIntoSlice old).drop (1 + width c.curve_type) = old.drop (1 + width c.curve_type) := by
  have hw : (packCalc c.calculator).length = width c.curve_type := by
    obtain ⟨t, k⟩ := c
    cases k <;> (cases (show t = _ from h); rfl)
  have hle : width c.curve_type ≤ 32 := by
    cases c.curve_type <;> decide
  unfold SwapCurve.packIntoSlice
  constructor
  · rw [List.length_cons, List.length_append, List.length_drop, ho, hw]
    omega
  · rw [← hw, Nat.add_comm 1, List.drop_succ_cons, List.drop_left' rfl]

/-- C94.  A copy is the same curve. -/
theorem C94_clone (c : SwapCurve) (h : Matched c) : c.clone = .ok c := C94_round_trip c h _

/-- C94.  Curves compare as equal exactly if they are. -/
theorem C94_eq (a b : SwapCurve) (ha : Matched a) (hb : Matched b) : a.eq b = true ↔ a = b := by
  unfold SwapCurve.eq
  rw [decide_eq_true_iff]
  constructor
  · intro h
    have h1 := C94_clone a ha
    have h2 := C94_clone b hb
    unfold SwapCurve.clone at h1 h2
    rw [h, h2] at h1
    exact (Except.ok.inj h1).symm
  · rintro rfl
    rfl

/-- C94.  Without the match neither holds: a curve of stable type with a constant-price calculator counts as
equal to a stable curve, and its copy is one. -/
theorem C94_mismatch :
    SwapCurve.eq ⟨.Stable, .constantPrice 5⟩ ⟨.Stable, .stable 5⟩ = true ∧
    SwapCurve.clone ⟨.Stable, .constantPrice 5⟩ = .ok ⟨.Stable, .stable 5⟩ := by decide +kernel

example : SwapCurve.eq (.newLinearPrice ⟨1, 2, 3, 4⟩) (.newLinearPrice ⟨1, 2, 3, 5⟩) = false ∧
    SwapCurve.eq (.newConstantPrice 7) (.newConstantPrice 7) = true ∧
    SwapCurve.eq (.newConstantPrice 7) ⟨.Offset, .offset 7⟩ = false ∧
    SwapCurve.clone (.newLinearPrice ⟨1, 2, 3, 4⟩) = .ok (.newLinearPrice ⟨1, 2, 3, 4⟩) := by
  decide +kernel
example : Matched (.newLinearPrice ⟨1, 2, 3, 4⟩) := rfl

end Props
end Verif
