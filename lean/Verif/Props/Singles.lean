import Verif.Props.Shares
import Verif.Lemmas.Singles
import Mathlib.Data.Nat.Sqrt

/-
C59: single-sided deposits and withdrawals on the square-root curves (constant product, offset) and on
the stable curve.
-/

namespace Verif.Props
open Verif Spec

/-- A square root for the examples: rounded down at 12 decimals. -/
def rootSpl : SplEnv := ⟨true, fun v => .ok (Nat.sqrt (v * 1000000000000))⟩

theorem rootSpl_sq (n : Nat) (v : Nat) (h : v * 1000000000000 = n * n) :
    rootSpl.sqrt v = .ok n := by
  show Res.ok (Nat.sqrt (v * 1000000000000)) = _
  rw [h, Nat.sqrt_eq]

theorem rootSpl_le (v r : Nat) (hv : 1000000000000 ≤ v) (h : rootSpl.sqrt v = .ok r) : r ≤ v := by
  have h1 : Nat.sqrt (v * 1000000000000) = r := Res.ok.inj h
  rw [← h1]
  calc Nat.sqrt (v * 1000000000000) ≤ Nat.sqrt (v * v) := Nat.sqrt_le_sqrt (Nat.mul_le_mul_left _ hv)
    _ = v := Nat.sqrt_eq v

/-- C59.  A single-sided deposit of `s` into a constant-product or offset pool mints `m` pool tokens
exactly when `m = S·(√(1 + x/v) − 1)` rounded down, where `x` is the amount less the trade fee on half
of it, `v` the balance of the side deposited to (token B's counted with the offset), the ratio is
truncated at 12 decimals and the root is the one the maths library returns. -/
theorem C59_root_deposit (e : SplEnv) (c : Curve) (s A B S v m : Nat) (dir : TradeDirection) (f : Fees)
    (hc : rootSide c dir A B = some v) (hv : f.validate = .ok ()) (hs0 : s ≠ 0) (hs : s < 2 ^ 64)
    (hA : A < 2 ^ 64) (hB : B < 2 ^ 64) (hS : S < 2 ^ 64)
    (hsq : ∀ w r, 1000000000000 ≤ w → e.sqrt w = .ok r → r ≤ w) :
    c.depositSingle e s A B S dir f = .ok m ↔
      ∃ q r, Down (counted f s * 1000000000000) v q ∧ e.sqrt (1000000000000 + q) = .ok r ∧
        1000000000000 ≤ r ∧ m < 2 ^ 128 ∧ Down (S * (r - 1000000000000)) 1000000000000 m := by
  obtain ⟨fee, h1, h2, h3⟩ := counted_ok hv hs hs0
  have hcs : counted f s < U64 := lt_of_le_of_lt (Nat.sub_le _ _) hs
  have hO : Spl.ONE = 1000000000000 := rfl
  have key : ∀ B', sideOf dir A B' = v → v < U128 →
      (ConstantProduct.depositSingle e (counted f s) A B' S dir .Floor = .ok m ↔
        ∃ q r, Down (counted f s * 1000000000000) v q ∧ e.sqrt (1000000000000 + q) = .ok r ∧
          1000000000000 ≤ r ∧ m < U128 ∧ Down (S * (r - 1000000000000)) 1000000000000 m) :=
    fun B' e1 e2 => by
      have := ConstantProduct.depositSingle_iff (e := e) (A := A) (B := B') (dir := dir) (m := m) hO hcs
        (e1 ▸ e2) hS hsq
      rw [e1] at this
      exact this
  unfold Curve.depositSingle
  rw [if_neg hs0, cdiv_ok (by decide), Res.ok_bind, h1, Res.ok_bind, h2, Res.ok_bind]
  have hU : U64 + U64 < U128 := by decide
  have hA' : A < U64 := hA
  have hB' : B < U64 := hB
  cases c with
  | constantProduct =>
    have hv' : sideOf dir A B = v := by cases dir <;> simpa [rootSide, sideOf] using hc
    have hlt : v < U128 := by rw [← hv']; cases dir <;> simp only [sideOf] <;> omega
    exact key B hv' hlt
  | offset o =>
    have ho : o.toNat < U64 := o.toNat_lt
    have hv' : sideOf dir A (B + o.toNat) = v := by cases dir <;> simpa [rootSide, sideOf] using hc
    have hlt : v < U128 := by rw [← hv']; cases dir <;> simp only [sideOf] <;> omega
    show (cadd U128 B o.toNat >>= fun sb =>
      ConstantProduct.depositSingle e (counted f s) A sb S dir .Floor) = .ok m ↔ _
    rw [cadd_ok (by omega), Res.ok_bind]
    exact key _ hv' hlt
  | constantPrice p => cases dir <;> simp [rootSide] at hc
  | stable a => cases dir <;> simp [rootSide] at hc
  | linear l => cases dir <;> simp [rootSide] at hc

/-- C59.  A single-sided withdrawal of `s` from a constant-product or offset pool burns `m` pool tokens
exactly when `m = S·(1 − √(1 − x/v))` rounded up, with `x` and `v` as for deposits. -/
theorem C59_root_withdraw (e : SplEnv) (c : Curve) (s A B S v m : Nat) (dir : TradeDirection) (f : Fees)
    (hc : rootSide c dir A B = some v) (hv : f.validate = .ok ()) (hs0 : s ≠ 0) (hs : s < 2 ^ 64)
    (hA : A < 2 ^ 64) (hB : B < 2 ^ 64) (hS : S < 2 ^ 64) :
    c.withdrawSingle e s A B S dir f = .ok m ↔
      ∃ q r, Down (counted f s * 1000000000000) v q ∧ q ≤ 1000000000000 ∧
        e.sqrt (1000000000000 - q) = .ok r ∧ r ≤ 1000000000000 ∧
        Up (S * (1000000000000 - r)) 1000000000000 m := by
  obtain ⟨fee, h1, h2, h3⟩ := counted_ok hv hs hs0
  have hcs : counted f s < U64 := lt_of_le_of_lt (Nat.sub_le _ _) hs
  have hO : Spl.ONE = 1000000000000 := rfl
  have key : ∀ B', sideOf dir A B' = v → v < U128 →
      (ConstantProduct.withdrawSingle e (counted f s) A B' S dir .Ceiling = .ok m ↔
        ∃ q r, Down (counted f s * 1000000000000) v q ∧ q ≤ 1000000000000 ∧
          e.sqrt (1000000000000 - q) = .ok r ∧ r ≤ 1000000000000 ∧
          Up (S * (1000000000000 - r)) 1000000000000 m) :=
    fun B' e1 e2 => by
      have := ConstantProduct.withdrawSingle_iff (e := e) (A := A) (B := B') (dir := dir) (m := m) hO
        hcs (e1 ▸ e2) hS
      rw [e1] at this
      exact this
  unfold Curve.withdrawSingle
  rw [if_neg hs0, cdiv_ok (by decide), Res.ok_bind, h1, Res.ok_bind, h2, Res.ok_bind]
  have hU : U64 + U64 < U128 := by decide
  have hA' : A < U64 := hA
  have hB' : B < U64 := hB
  cases c with
  | constantProduct =>
    have hv' : sideOf dir A B = v := by cases dir <;> simpa [rootSide, sideOf] using hc
    have hlt : v < U128 := by rw [← hv']; cases dir <;> simp only [sideOf] <;> omega
    exact key B hv' hlt
  | offset o =>
    have ho : o.toNat < U64 := o.toNat_lt
    have hv' : sideOf dir A (B + o.toNat) = v := by cases dir <;> simpa [rootSide, sideOf] using hc
    have hlt : v < U128 := by rw [← hv']; cases dir <;> simp only [sideOf] <;> omega
    show (cadd U128 B o.toNat >>= fun sb =>
      ConstantProduct.withdrawSingle e (counted f s) A sb S dir .Ceiling) = .ok m ↔ _
    rw [cadd_ok (by omega), Res.ok_bind]
    exact key _ hv' hlt
  | constantPrice p => cases dir <;> simp [rootSide] at hc
  | stable a => cases dir <;> simp [rootSide] at hc
  | linear l => cases dir <;> simp [rootSide] at hc

/-- A root that is too large by little is still not above numbers from one on. -/
theorem root_le {e : SplEnv} {k : Nat} (hk : k ≤ 1000000000000)
    (hsq : ∀ w r, e.sqrt w = .ok r → r * r ≤ w * 1000000000000 + k) :
    ∀ w r, 1000000000000 ≤ w → e.sqrt w = .ok r → r ≤ w := by
  intro w r hw hr
  by_contra hlt
  have h1 := hsq w r hr
  have h2 : w * 1000000000000 ≤ w * w := Nat.mul_le_mul_left _ hw
  have h3 : (w + 1) * (w + 1) ≤ r * r := Nat.mul_self_le_mul_self (by omega)
  have h4 : (w + 1) * (w + 1) = w * w + 2 * w + 1 := by ring
  omega

/-- C59.  When the square of the library's root exceeds its argument by no more than `k` units of the 24th
decimal, such a deposit mints no more than the growth of the geometric mean pays for, up to `k` parts in
10²⁴: `10²⁴ · (S + m)² · v ≤ S² · (10²⁴ · (v + s) + k · v)`.  C105 shows that `k` is at most 10¹². -/
theorem C59_root_deposit_fair (e : SplEnv) (c : Curve) (s A B S v m k : Nat) (dir : TradeDirection)
    (f : Fees) (hc : rootSide c dir A B = some v) (hv : f.validate = .ok ()) (hs0 : s ≠ 0)
    (hs : s < 2 ^ 64) (hA : A < 2 ^ 64) (hB : B < 2 ^ 64) (hS : S < 2 ^ 64) (hk : k ≤ 1000000000000)
    (hsq : ∀ w r, e.sqrt w = .ok r → r * r ≤ w * 1000000000000 + k)
    (h : c.depositSingle e s A B S dir f = .ok m) :
    1000000000000 * 1000000000000 * ((S + m) ^ 2 * v) ≤
      S ^ 2 * (1000000000000 * 1000000000000 * (v + s) + k * v) := by
  obtain ⟨q, r, h1, h2, h3, _, h5⟩ :=
    (C59_root_deposit e c s A B S v m dir f hc hv hs0 hs hA hB hS (root_le hk hsq)).1 h
  have h4 := hsq _ _ h2
  have hcs : counted f s ≤ s := Nat.sub_le _ _
  have a1 := h1.1
  have a2 := h5.1
  generalize counted f s = x at *
  generalize 1000000000000 = o at *
  have b1 : (S + m) * o ≤ S * r := by
    obtain ⟨k, rfl⟩ := Nat.exists_eq_add_of_le h3
    rw [Nat.add_sub_cancel_left] at a2
    rw [Nat.add_mul, Nat.mul_add]
    omega
  have b2 : ((S + m) * o) * ((S + m) * o) ≤ (S * r) * (S * r) := Nat.mul_self_le_mul_self b1
  have b3 : S * S * (r * r) ≤ S * S * ((o + q) * o + k) := Nat.mul_le_mul_left _ h4
  have b4 : S * S * o * (q * v) ≤ S * S * o * (s * o) :=
    Nat.mul_le_mul_left _ (a1.trans (Nat.mul_le_mul_right _ hcs))
  calc o * o * ((S + m) ^ 2 * v) = ((S + m) * o) * ((S + m) * o) * v := by ring
    _ ≤ (S * r) * (S * r) * v := Nat.mul_le_mul_right _ b2
    _ = S * S * (r * r) * v := by ring
    _ ≤ S * S * ((o + q) * o + k) * v := Nat.mul_le_mul_right _ b3
    _ = S * S * o * o * v + S * S * k * v + S * S * o * (q * v) := by ring
    _ ≤ S * S * o * o * v + S * S * k * v + S * S * o * (s * o) := Nat.add_le_add_left b4 _
    _ = S ^ 2 * (o * o * (v + s) + k * v) := by ring

/-- C59.  And a withdrawal burns at least what the amount counted (that asked for less the trade fee on
half of it) is worth, up to `10¹² + k` parts in 10²⁴ of the balance, because the part withdrawn is cut off
after twelve digits: `10²⁴ · (S − m)² · v ≤ S² · (10²⁴ · (v − x) + (10¹² + k) · v)`. -/
theorem C59_root_withdraw_fair (e : SplEnv) (c : Curve) (s A B S v m k : Nat) (dir : TradeDirection)
    (f : Fees) (hc : rootSide c dir A B = some v) (hv : f.validate = .ok ()) (hs0 : s ≠ 0)
    (hs : s < 2 ^ 64) (hA : A < 2 ^ 64) (hB : B < 2 ^ 64) (hS : S < 2 ^ 64) (hm : m ≤ S)
    (hx : counted f s ≤ v) (hsq : ∀ w r, e.sqrt w = .ok r → r * r ≤ w * 1000000000000 + k)
    (h : c.withdrawSingle e s A B S dir f = .ok m) :
    1000000000000 * 1000000000000 * ((S - m) ^ 2 * v) ≤
      S ^ 2 * (1000000000000 * 1000000000000 * (v - counted f s) + (1000000000000 + k) * v) := by
  obtain ⟨q, r, h1, h2, h3, h4, h5⟩ := (C59_root_withdraw e c s A B S v m dir f hc hv hs0 hs hA hB hS).1 h
  have h6 := hsq _ _ h3
  have a1 := h1.2
  have a2 : S * (1000000000000 - r) ≤ m * 1000000000000 := by
    unfold Up at h5
    omega
  generalize counted f s = x at *
  generalize 1000000000000 = o at *
  obtain ⟨d, rfl⟩ := Nat.exists_eq_add_of_le hm
  obtain ⟨y, rfl⟩ := Nat.exists_eq_add_of_le hx
  obtain ⟨p, rfl⟩ := Nat.exists_eq_add_of_le h2
  rw [Nat.add_sub_cancel_left] at *
  rw [Nat.add_sub_cancel_left]
  have b1 : d * (q + p) ≤ (m + d) * r := by
    obtain ⟨z, hz⟩ := Nat.exists_eq_add_of_le h4
    rw [hz, Nat.add_sub_cancel_left] at a2
    rw [hz]
    rw [Nat.add_mul, Nat.mul_add] at a2
    rw [Nat.mul_add, Nat.add_mul, ]
    omega
  have b2 : (d * (q + p)) * (d * (q + p)) ≤ ((m + d) * r) * ((m + d) * r) := Nat.mul_self_le_mul_self b1
  have b3 : p * (x + y) ≤ y * (q + p) + (x + y) := by nlinarith
  calc (q + p) * (q + p) * (d ^ 2 * (x + y)) = (d * (q + p)) * (d * (q + p)) * (x + y) := by ring
    _ ≤ ((m + d) * r) * ((m + d) * r) * (x + y) := Nat.mul_le_mul_right _ b2
    _ = (m + d) ^ 2 * (r * r) * (x + y) := by ring
    _ ≤ (m + d) ^ 2 * (p * (q + p) + k) * (x + y) :=
      Nat.mul_le_mul_right _ (Nat.mul_le_mul_left _ h6)
    _ = (m + d) ^ 2 * ((p * (x + y)) * (q + p) + k * (x + y)) := by ring
    _ ≤ (m + d) ^ 2 * ((y * (q + p) + (x + y)) * (q + p) + k * (x + y)) :=
      Nat.mul_le_mul_left _ (Nat.add_le_add_right (Nat.mul_le_mul_right _ b3) _)
    _ = _ := by ring

/-- C59.  A single-sided deposit into a stable pool mints `m` pool tokens exactly when both invariants
can be computed, the invariant does not fall, and `m = S·(D₁ − D₀)/D₀` rounded down, where `D₁` is the
invariant with the amount, less the trade fee on half of it, added to the side deposited to. -/
theorem C59_stable_deposit (e : SplEnv) (amp : UInt64) (s A B S m : Nat) (dir : TradeDirection)
    (f : Fees) (hv : f.validate = .ok ()) (hs : s < 2 ^ 64) (hc0 : counted f s ≠ 0)
    (hA : A < 2 ^ 64) (hB : B < 2 ^ 64) (hS : S < 2 ^ 64) :
    (Curve.stable amp).depositSingle e s A B S dir f = .ok m ↔
      ∃ D0 D1, amp.toNat * 2 < 2 ^ 64 ∧ Stable.computeD (amp.toNat * 2) A B = .ok D0 ∧
        Stable.computeD (amp.toNat * 2) (grown dir (counted f s) A B).1 (grown dir (counted f s) A B).2 =
          .ok D1 ∧
        D0 ≤ D1 ∧ 0 < D0 ∧ m < 2 ^ 128 ∧ Down ((D1 - D0) * S) D0 m := by
  have hs0 : s ≠ 0 := by
    rintro rfl
    exact hc0 (Nat.zero_sub _)
  obtain ⟨fee, h1, h2, h3⟩ := counted_ok hv hs hs0
  have hcs : counted f s < U64 := lt_of_le_of_lt (Nat.sub_le _ _) hs
  unfold Curve.depositSingle
  rw [if_neg hs0, cdiv_ok (by decide), Res.ok_bind, h1, Res.ok_bind, h2, Res.ok_bind]
  show Stable.depositSingle amp (counted f s) A B S dir = .ok m ↔ _
  rw [Stable.depositSingle_iff rfl hc0 hcs hA hB hS]
  cases dir <;> exact Iff.rfl

/-- C59.  A single-sided withdrawal from a stable pool burns `m` pool tokens exactly when the amount
that counts is there, both invariants can be computed, the invariant does not rise, and
`m = S·(D₀ − D₁)/D₀`, truncated at 12 decimals and then rounded up. -/
theorem C59_stable_withdraw (e : SplEnv) (amp : UInt64) (s A B S m : Nat) (dir : TradeDirection)
    (f : Fees) (hv : f.validate = .ok ()) (hs : s < 2 ^ 64) (hc0 : counted f s ≠ 0)
    (hA : A < 2 ^ 64) (hB : B < 2 ^ 64) (hS : S < 2 ^ 64) :
    (Curve.stable amp).withdrawSingle e s A B S dir f = .ok m ↔
      ∃ D0 D1 q, amp.toNat * 2 < 2 ^ 64 ∧ counted f s ≤ (grown dir 0 A B).1 ∧
        Stable.computeD (amp.toNat * 2) A B = .ok D0 ∧
        Stable.computeD (amp.toNat * 2) (shrunk dir (counted f s) A B).1
          (shrunk dir (counted f s) A B).2 = .ok D1 ∧
        D1 ≤ D0 ∧ 0 < D0 ∧ Down ((D0 - D1) * S * 1000000000000) D0 q ∧ Up q 1000000000000 m := by
  have hs0 : s ≠ 0 := by
    rintro rfl
    exact hc0 (Nat.zero_sub _)
  obtain ⟨fee, h1, h2, h3⟩ := counted_ok hv hs hs0
  unfold Curve.withdrawSingle
  rw [if_neg hs0, cdiv_ok (by decide), Res.ok_bind, h1, Res.ok_bind, h2, Res.ok_bind]
  show Stable.withdrawSingle amp (counted f s) A B S dir = .ok m ↔ _
  rw [Stable.withdrawSingle_iff (o := 1000000000000) rfl hc0 hA hB hS]
  cases dir <;> exact Iff.rfl

/-- C59.  The charge for such a withdrawal falls short of the exact share by less than `10⁻¹²` of a
pool token, and exceeds it by less than one. -/
theorem C59_stable_withdraw_charge (e : SplEnv) (amp : UInt64) (s A B S m : Nat) (dir : TradeDirection)
    (f : Fees) (hv : f.validate = .ok ()) (hs : s < 2 ^ 64) (hc0 : counted f s ≠ 0)
    (hA : A < 2 ^ 64) (hB : B < 2 ^ 64) (hS : S < 2 ^ 64)
    (h : (Curve.stable amp).withdrawSingle e s A B S dir f = .ok m) :
    ∃ D0 D1, Stable.computeD (amp.toNat * 2) A B = .ok D0 ∧
      Stable.computeD (amp.toNat * 2) (shrunk dir (counted f s) A B).1
        (shrunk dir (counted f s) A B).2 = .ok D1 ∧ D1 ≤ D0 ∧
      (D0 - D1) * S * 1000000000000 < (m * 1000000000000 + 1) * D0 ∧
      m * D0 < (D0 - D1) * S + D0 := by
  obtain ⟨D0, D1, q, _, _, h0, h1, hle, hp, hq, hm⟩ :=
    (C59_stable_withdraw e amp s A B S m dir f hv hs hc0 hA hB hS).1 h
  refine ⟨D0, D1, h0, h1, hle, ?_, ?_⟩
  · exact lt_of_lt_of_le hq.2 (Nat.mul_le_mul_right _ (Nat.add_le_add_right hm.1 1))
  · have a1 := hq.1
    have a2 := hm.2
    generalize (D0 - D1) * S = n at *
    have ho : 0 < 1000000000000 := by decide
    generalize 1000000000000 = o at *
    have b1 : m * o * D0 < (q + o) * D0 := (Nat.mul_lt_mul_right hp).2 a2
    have b2 : m * o * D0 < n * o + o * D0 := by rw [Nat.add_mul] at b1; omega
    have b3 : o * (m * D0) < o * (n + D0) := by
      calc o * (m * D0) = m * o * D0 := by ring
        _ < n * o + o * D0 := b2
        _ = o * (n + D0) := by ring
    exact Nat.lt_of_mul_lt_mul_left b3

example : (Curve.offset 200).depositSingle rootSpl 3003 50 800 12345 .BtoA sampleFees = .ok 12345 :=
  (C59_root_deposit rootSpl (.offset 200) 3003 50 800 12345 1000 12345 .BtoA sampleFees (by decide)
    (by decide) (by decide) (by decide) (by decide) (by decide) (by decide) rootSpl_le).2
    ⟨3000000000000, 2000000000000, by decide +kernel, rootSpl_sq _ _ (by decide), by decide, by decide,
      by decide +kernel⟩
example : Curve.constantProduct.withdrawSingle rootSpl 751 1000 70 12345 .AtoB sampleFees = .ok 6173 :=
  (C59_root_withdraw rootSpl .constantProduct 751 1000 70 12345 1000 6173 .AtoB sampleFees (by decide)
    (by decide) (by decide) (by decide) (by decide) (by decide) (by decide)).2
    ⟨750000000000, 500000000000, by decide +kernel, by decide, rootSpl_sq _ _ (by decide), by decide,
      by decide +kernel⟩
theorem rootSpl_sq_le : ∀ w r, rootSpl.sqrt w = .ok r → r * r ≤ w * 1000000000000 + 0 := by
  intro w r h
  have h1 : Nat.sqrt (w * 1000000000000) = r := Res.ok.inj h
  rw [← h1, Nat.add_zero]
  exact Nat.sqrt_le _
example : 1000000000000 * 1000000000000 * ((12345 + 12345) ^ 2 * 1000) ≤
    12345 ^ 2 * (1000000000000 * 1000000000000 * (1000 + 3003) + 0 * 1000) :=
  C59_root_deposit_fair rootSpl (.offset 200) 3003 50 800 12345 1000 12345 0 .BtoA sampleFees (by decide)
    (by decide) (by decide) (by decide) (by decide) (by decide) (by decide) (by decide) rootSpl_sq_le
    ((C59_root_deposit rootSpl (.offset 200) 3003 50 800 12345 1000 12345 .BtoA sampleFees (by decide)
      (by decide) (by decide) (by decide) (by decide) (by decide) (by decide) rootSpl_le).2
      ⟨3000000000000, 2000000000000, by decide +kernel, rootSpl_sq _ _ (by decide), by decide, by decide,
        by decide +kernel⟩)
example : 1000000000000 * 1000000000000 * ((12345 - 6173) ^ 2 * 1000) ≤
    12345 ^ 2 * (1000000000000 * 1000000000000 * (1000 - counted sampleFees 751) +
      (1000000000000 + 0) * 1000) :=
  C59_root_withdraw_fair rootSpl .constantProduct 751 1000 70 12345 1000 6173 0 .AtoB sampleFees (by decide)
    (by decide) (by decide) (by decide) (by decide) (by decide) (by decide) (by decide) (by decide +kernel)
    rootSpl_sq_le
    ((C59_root_withdraw rootSpl .constantProduct 751 1000 70 12345 1000 6173 .AtoB sampleFees (by decide)
      (by decide) (by decide) (by decide) (by decide) (by decide) (by decide)).2
      ⟨750000000000, 500000000000, by decide +kernel, by decide, rootSpl_sq _ _ (by decide), by decide,
        by decide +kernel⟩)
example : (Curve.stable 50).depositSingle sampleSpl 1000 5000 7000 100000 .AtoB sampleFees = .ok 8352 :=
  (C59_stable_deposit sampleSpl 50 1000 5000 7000 100000 8352 .AtoB sampleFees (by decide) (by decide)
    (by decide) (by decide) (by decide) (by decide)).2
    ⟨11996, 12998, by decide, by decide +kernel, by decide +kernel, by decide, by decide, by decide,
      by decide +kernel⟩
example : ∃ D0 D1, Stable.computeD 100 5000 7000 = .ok D0 ∧ Stable.computeD 100 6001 5000 = .ok D1 ∧
    D1 ≤ D0 ∧ (D0 - D1) * 100000 * 1000000000000 < (8303 * 1000000000000 + 1) * D0 ∧
      8303 * D0 < (D0 - D1) * 100000 + D0 :=
  C59_stable_withdraw_charge sampleSpl 50 1000 5000 7000 100000 8303 .BtoA sampleFees (by decide)
    (by decide) (by decide) (by decide) (by decide) (by decide) (by decide +kernel)

end Verif.Props
