import Verif.Lemmas.Shares
import Verif.Lemmas.Stable
import Verif.Model.Curve

/-
Single-sided operations of the square-root and stable curves.
-/

namespace Verif
open Spec

theorem half_div {t o : Nat} (ho : 1 < o) : (t * o + o / 2) / o = t := by
  rw [Nat.add_comm, Nat.add_mul_div_right _ _ (by omega), Nat.div_eq_of_lt (Nat.div_lt_self (by omega)
    (by omega)), Nat.zero_add]

/-- The quotient of two whole numbers is truncated at 12 decimals. -/
theorem Spl.div_whole {s v o : Nat} (ho : Spl.ONE = o) (hv : 0 < v) (hs : s * o * o + o < U256) (x : Nat) :
    Spl.div (s * o) (v * o) = .ok x ↔ Down (s * o) v x := by
  have hO : 0 < o := by rw [← ho]; decide
  have hO1 : 1 < o := by rw [← ho]; decide
  have hb : v * o ≠ 0 := by
    have := Nat.mul_pos hv hO; omega
  rw [down_iff hv]
  unfold Spl.div
  rw [if_neg hb, ho, cmul_ok (by omega)]
  simp only []
  rw [cadd_ok (by have : o / 2 ≤ o := Nat.div_le_self _ _; omega), Res.ok_bind, cdiv_ok hb]
  have h : (s * o * o + o / 2) / (v * o) = s * o / v := by
    rw [Nat.mul_comm v, ← Nat.div_div_eq_div_mul]
    rw [half_div hO1]
  rw [h]
  constructor
  · intro e; exact (Res.ok.inj e).symm
  · intro e; rw [e]

theorem Spl.div_zero {a b q : Nat} (hb : b = 0) : Spl.div a b ≠ .ok q := by
  unfold Spl.div
  rw [if_pos hb]
  simp

theorem Spl.mul_core {a b o : Nat} (ho : Spl.ONE = o) (hs : a * b + o < U256) :
    Spl.mul a b = .ok ((a * b + o / 2) / o) := by
  have hO : 0 < o := by rw [← ho]; decide
  unfold Spl.mul
  rw [cmul_ok (by omega)]
  simp only [ho]
  rw [cadd_ok (by have : o / 2 ≤ o := Nat.div_le_self _ _; omega), Res.ok_bind, cdiv_ok (by omega)]

/-- Multiplying by a whole number is exact. -/
theorem Spl.mul_whole {s t o : Nat} (ho : Spl.ONE = o) (hs : s * o * t + o < U256) :
    Spl.mul (s * o) t = .ok (s * t) := by
  have h1 : 1 < o := by rw [← ho]; decide
  rw [Spl.mul_core ho hs, Nat.mul_right_comm, half_div h1]

/-- Likewise with the whole number on the right. -/
theorem Spl.whole_mul {s t o : Nat} (ho : Spl.ONE = o) (hs : t * (s * o) + o < U256) :
    Spl.mul t (s * o) = .ok (t * s) := by
  have h1 : 1 < o := by rw [← ho]; decide
  rw [Spl.mul_core ho hs, ← Nat.mul_assoc, half_div h1]

theorem Spl.toImprecise_whole {k o : Nat} (ho : Spl.ONE = o) (hk : k * o + o < U256) (m : Nat) :
    Spl.toImprecise (k * o) = .ok m ↔ k < U128 ∧ m = k := by
  have hO : 0 < o := by rw [← ho]; decide
  unfold Spl.toImprecise
  rw [ho, cadd_ok (by have : o / 2 ≤ o := Nat.div_le_self _ _; omega), Res.ok_bind,
    cdiv_ok (by omega), Res.ok_bind, half_div (by rw [← ho]; decide), asUint_eq_ok]

theorem Spl.floor_out {t o : Nat} (ho : Spl.ONE = o) (ht : t + o < U256) (m : Nat) :
    (Spl.floor t >>= Spl.toImprecise) = .ok m ↔ m < U128 ∧ Down t o m := by
  have hO : 0 < o := by rw [← ho]; decide
  have h1 : t / o * o ≤ t := Nat.div_mul_le_self _ _
  unfold Spl.floor
  rw [ho, cdiv_ok (by omega), Res.ok_bind, cmul_ok (by omega), Res.ok_bind,
    Spl.toImprecise_whole ho (by omega), down_iff hO]
  constructor
  · rintro ⟨a, b⟩; exact ⟨b ▸ a, b⟩
  · rintro ⟨a, b⟩; exact ⟨b ▸ a, b⟩

theorem Spl.ceiling_out {t o : Nat} (ho : Spl.ONE = o) (ht : t + 3 * o < U256) (m : Nat) :
    (Spl.ceiling t >>= Spl.toImprecise) = .ok m ↔ m < U128 ∧ Up t o m := by
  have hO : 0 < o := by rw [← ho]; decide
  have h1 : (t + (o - 1)) / o * o ≤ t + (o - 1) := Nat.div_mul_le_self _ _
  unfold Spl.ceiling
  rw [ho, cadd_ok (by omega), Res.ok_bind, cdiv_ok (by omega), Res.ok_bind, cmul_ok (by omega), Res.ok_bind,
    Spl.toImprecise_whole ho (by omega)]
  have h2 : Up t o m ↔ m = (t + (o - 1)) / o := by
    unfold Up
    constructor
    · rintro ⟨a, b⟩
      symm
      rw [Nat.div_eq_iff hO]
      omega
    · intro a
      have := (Nat.div_eq_iff hO).1 a.symm
      omega
  rw [h2]
  constructor
  · rintro ⟨a, b⟩; exact ⟨b ▸ a, b⟩
  · rintro ⟨a, b⟩; exact ⟨b ▸ a, b⟩

/-- The side a direction names. -/
def sideOf (dir : TradeDirection) (A B : Nat) : Nat := match dir with | .AtoB => A | .BtoA => B

theorem u64_one {x o : Nat} (ho : Spl.ONE = o) (hx : x < U64) : x * o < U128 := by
  have : x * o ≤ (U64 - 1) * o := Nat.mul_le_mul_right _ (by omega)
  have h2 : (U64 - 1) * o < U128 := by rw [← ho]; decide
  omega

theorem unit_sq {x o : Nat} (ho : Spl.ONE = o) (hx : x * o < U128) : x * o * o + o < U256 := by
  have h2 : U128 * o + o < U256 := by rw [← ho]; decide
  exact lt_of_le_of_lt (Nat.add_le_add_right (Nat.mul_le_mul_right _ hx.le) _) h2

theorem unit_wide {v o : Nat} (ho : Spl.ONE = o) (hv : v < U128) : v * o < U256 := by
  have h2 : U128 * o < U256 := by rw [← ho]; decide
  exact lt_of_le_of_lt (Nat.mul_le_mul_right _ hv.le) h2

theorem unit_grow {S r o : Nat} (ho : Spl.ONE = o) (hS : S < U64) (hr : r < U128 + U128) :
    S * o * (r - o) + o < U256 ∧ S * (r - o) + o < U256 := by
  have h2 : U64 * o * (U128 + U128) + o < U256 := by rw [← ho]; decide
  have h4 : U64 * (U128 + U128) + o < U256 := by rw [← ho]; decide
  have h5 : r - o ≤ U128 + U128 := le_trans (Nat.sub_le _ _) hr.le
  exact ⟨lt_of_le_of_lt (Nat.add_le_add_right (Nat.mul_le_mul (Nat.mul_le_mul_right _ hS.le) h5) _) h2,
    lt_of_le_of_lt (Nat.add_le_add_right (Nat.mul_le_mul hS.le h5) _) h4⟩

theorem unit_shrink {S r o : Nat} (ho : Spl.ONE = o) (hS : S < U64) :
    S * o * (o - r) + o < U256 ∧ S * (o - r) + 3 * o < U256 ∧ S * (o - r) + o < U128 := by
  have h1 : U64 * o * o + o < U256 := by rw [← ho]; decide
  have h2 : U64 * o + 3 * o < U256 := by rw [← ho]; decide
  have h3 : U64 * o + o < U128 := by rw [← ho]; decide
  have h5 : o - r ≤ o := Nat.sub_le _ _
  exact ⟨lt_of_le_of_lt (Nat.add_le_add_right (Nat.mul_le_mul (Nat.mul_le_mul_right _ hS.le) h5) _) h1,
    lt_of_le_of_lt (Nat.add_le_add_right (Nat.mul_le_mul hS.le h5) _) h2,
    lt_of_le_of_lt (Nat.add_le_add_right (Nat.mul_le_mul hS.le h5) _) h3⟩

theorem unit_one {o : Nat} (ho : Spl.ONE = o) : cmul U256 1 o = .ok o := by rw [← ho]; decide

theorem ratio_lt {a v q : Nat} (h : Down a v q) (hv : 0 < v) (ha : a < U128) : q < U128 :=
  lt_of_le_of_lt (le_trans (Nat.le_mul_of_pos_right _ hv) h.1) ha

theorem unit_add {q o : Nat} (ho : Spl.ONE = o) (hq : q < U128) : o + q < U128 + U128 := by
  have h2 : o < U128 := by rw [← ho]; decide
  exact Nat.add_lt_add h2 hq

theorem dbl_lt : U128 + U128 < U256 := by decide

theorem ConstantProduct.depositSingle_eq {e : SplEnv} {x A B S o : Nat} {dir : TradeDirection}
    (ho : Spl.ONE = o) :
    ConstantProduct.depositSingle e x A B S dir .Floor = (do
      let ss ← cmul U256 (sideOf dir A B) o
      let s ← cmul U256 x o
      let ratio ← Spl.div s ss
      let one ← cmul U256 1 o
      let base ← cadd U256 one ratio
      let rt ← e.sqrt base
      let root ← csub rt one
      let ps ← cmul U256 S o
      let pt ← Spl.mul ps root
      Spl.floor pt >>= Spl.toImprecise) := by
  rw [← ho]
  cases dir <;> rfl

theorem ConstantProduct.withdrawSingle_eq {e : SplEnv} {x A B S o : Nat} {dir : TradeDirection}
    (ho : Spl.ONE = o) :
    ConstantProduct.withdrawSingle e x A B S dir .Ceiling = (do
      let ss ← cmul U256 (sideOf dir A B) o
      let s ← cmul U256 x o
      let ratio ← Spl.div s ss
      let one ← cmul U256 1 o
      let base ← csub one ratio
      let rt ← e.sqrt base
      let root ← csub one rt
      let ps ← cmul U256 S o
      let pt ← Spl.mul ps root
      Spl.ceiling pt >>= Spl.toImprecise) := by
  rw [← ho]
  cases dir <;> rfl

theorem ConstantProduct.depositSingle_iff {e : SplEnv} {x A B S m o : Nat} {dir : TradeDirection}
    (ho : Spl.ONE = o) (hx : x < U64) (hv : sideOf dir A B < U128) (hS : S < U64)
    (hsq : ∀ v r, o ≤ v → e.sqrt v = .ok r → r ≤ v) :
    ConstantProduct.depositSingle e x A B S dir .Floor = .ok m ↔
      ∃ q r, Down (x * o) (sideOf dir A B) q ∧ e.sqrt (o + q) = .ok r ∧ o ≤ r ∧
        m < U128 ∧ Down (S * (r - o)) o m := by
  have hxo := u64_one ho hx
  have hso := u64_one ho hS
  have e0 : U128 < U256 := by decide
  rw [ConstantProduct.depositSingle_eq ho, cmul_ok (unit_wide ho hv), Res.ok_bind,
    cmul_ok (lt_trans hxo e0), Res.ok_bind, Res.bind_eq_ok]
  rcases Nat.eq_zero_or_pos (sideOf dir A B) with hv0 | hvp
  · constructor
    · rintro ⟨q, h, _⟩
      exact absurd h (Spl.div_zero (by rw [hv0, Nat.zero_mul]))
    · rintro ⟨q, r, ⟨h1, h2⟩, _⟩
      rw [hv0, Nat.mul_zero] at h2
      exact absurd h2 (Nat.not_lt_zero _)
  constructor
  · rintro ⟨q, h1, h⟩
    rw [Spl.div_whole ho hvp (unit_sq ho hxo)] at h1
    have hq := unit_add ho (ratio_lt h1 hvp hxo)
    rw [unit_one ho, Res.ok_bind, cadd_ok (lt_trans hq dbl_lt), Res.ok_bind] at h
    obtain ⟨r, h2, h⟩ := Res.bind_eq_ok.1 h
    have hr := hsq _ _ (Nat.le_add_right _ _) h2
    obtain ⟨t, h3, h⟩ := Res.bind_eq_ok.1 h
    obtain ⟨h3a, h3b⟩ := csub_eq_ok.1 h3
    obtain ⟨t1, t2⟩ := unit_grow ho hS (lt_of_le_of_lt hr hq)
    rw [cmul_ok (lt_trans hso e0), Res.ok_bind, h3b, Spl.mul_whole ho t1, Res.ok_bind] at h
    obtain ⟨h4, h5⟩ := (Spl.floor_out ho t2 m).1 h
    exact ⟨q, r, h1, h2, h3a, h4, h5⟩
  · rintro ⟨q, r, h1, h2, h3, h4, h5⟩
    have hq := unit_add ho (ratio_lt h1 hvp hxo)
    have hr := hsq _ _ (Nat.le_add_right _ _) h2
    obtain ⟨t1, t2⟩ := unit_grow ho hS (lt_of_le_of_lt hr hq)
    refine ⟨q, (Spl.div_whole ho hvp (unit_sq ho hxo) q).2 h1, ?_⟩
    rw [unit_one ho, Res.ok_bind, cadd_ok (lt_trans hq dbl_lt), Res.ok_bind, h2, Res.ok_bind,
      csub_ok h3, Res.ok_bind, cmul_ok (lt_trans hso e0), Res.ok_bind, Spl.mul_whole ho t1, Res.ok_bind]
    exact (Spl.floor_out ho t2 m).2 ⟨h4, h5⟩

theorem ConstantProduct.withdrawSingle_iff {e : SplEnv} {x A B S m o : Nat} {dir : TradeDirection}
    (ho : Spl.ONE = o) (hx : x < U64) (hv : sideOf dir A B < U128) (hS : S < U64) :
    ConstantProduct.withdrawSingle e x A B S dir .Ceiling = .ok m ↔
      ∃ q r, Down (x * o) (sideOf dir A B) q ∧ q ≤ o ∧ e.sqrt (o - q) = .ok r ∧
        r ≤ o ∧ Up (S * (o - r)) o m := by
  have hxo := u64_one ho hx
  have hso := u64_one ho hS
  have e0 : U128 < U256 := by decide
  rw [ConstantProduct.withdrawSingle_eq ho, cmul_ok (unit_wide ho hv), Res.ok_bind,
    cmul_ok (lt_trans hxo e0), Res.ok_bind, Res.bind_eq_ok]
  rcases Nat.eq_zero_or_pos (sideOf dir A B) with hv0 | hvp
  · constructor
    · rintro ⟨q, h, _⟩
      exact absurd h (Spl.div_zero (by rw [hv0, Nat.zero_mul]))
    · rintro ⟨q, r, ⟨h1, h2⟩, _⟩
      rw [hv0, Nat.mul_zero] at h2
      exact absurd h2 (Nat.not_lt_zero _)
  constructor
  · rintro ⟨q, h1, h⟩
    rw [Spl.div_whole ho hvp (unit_sq ho hxo)] at h1
    rw [unit_one ho, Res.ok_bind] at h
    obtain ⟨b, hb, h⟩ := Res.bind_eq_ok.1 h
    obtain ⟨hb1, hb2⟩ := csub_eq_ok.1 hb
    obtain ⟨r, h2, h⟩ := Res.bind_eq_ok.1 h
    obtain ⟨t, h3, h⟩ := Res.bind_eq_ok.1 h
    obtain ⟨h3a, h3b⟩ := csub_eq_ok.1 h3
    obtain ⟨t1, t2, _⟩ := unit_shrink (r := r) ho hS
    rw [cmul_ok (lt_trans hso e0), Res.ok_bind, h3b, Spl.mul_whole ho t1, Res.ok_bind] at h
    obtain ⟨h4, h5⟩ := (Spl.ceiling_out ho t2 m).1 h
    exact ⟨q, r, h1, hb1, hb2 ▸ h2, h3a, h5⟩
  · rintro ⟨q, r, h1, hb1, h2, h3, h5⟩
    obtain ⟨t1, t2, t3⟩ := unit_shrink (r := r) ho hS
    refine ⟨q, (Spl.div_whole ho hvp (unit_sq ho hxo) q).2 h1, ?_⟩
    rw [unit_one ho, Res.ok_bind, csub_ok hb1, Res.ok_bind, h2, Res.ok_bind, csub_ok h3, Res.ok_bind,
      cmul_ok (lt_trans hso e0), Res.ok_bind, Spl.mul_whole ho t1, Res.ok_bind]
    refine (Spl.ceiling_out ho t2 m).2 ⟨?_, h5⟩
    have hO : 0 < o := by rw [← ho]; decide
    exact lt_trans (lt_of_le_of_lt (Nat.le_mul_of_pos_right _ hO) h5.2) t3

/-- One Newton step stays below twice the sum of the balances. -/
theorem Stable.step_le {d L S p r : Nat} (hL : 2 ≤ L) (hd : d ≤ 2 * S)
    (h : Stable.calculateStep d L S p = .ok r) : r ≤ 2 * S := by
  obtain ⟨h1, h2, h3⟩ := Stable.calculateStep_ok h
  rw [h3]
  apply Nat.div_le_of_le_mul
  obtain ⟨k, rfl⟩ := Nat.exists_eq_add_of_le hL
  have e : 2 + k - 1 = k + 1 := by omega
  rw [e]
  have h4 : p * d ≤ p * (2 * S) := Nat.mul_le_mul_left _ hd
  have h5 : 0 ≤ k * S * d := Nat.zero_le _
  have h6 : 0 ≤ p * S := Nat.zero_le _
  nlinarith [h4, h5, h6]

theorem Stable.dLoop_le {L S a2 b2 : Nat} (hL : 2 ≤ L) : ∀ {n d r : Nat}, d ≤ 2 * S →
    Stable.dLoop L S a2 b2 n d = .ok r → r ≤ 2 * S := by
  intro n
  induction n with
  | zero =>
    intro d r hd h
    have := Res.ok.inj h
    omega
  | succ n ih =>
    intro d r hd h
    unfold Stable.dLoop at h
    obtain ⟨p1, _, h⟩ := Res.bind_eq_ok.1 h
    obtain ⟨p2, _, h⟩ := Res.bind_eq_ok.1 h
    obtain ⟨p3, _, h⟩ := Res.bind_eq_ok.1 h
    obtain ⟨p4, _, h⟩ := Res.bind_eq_ok.1 h
    obtain ⟨d', hs, h⟩ := Res.bind_eq_ok.1 h
    have h1 := Stable.step_le hL hd hs
    by_cases he : d' = d
    · rw [if_pos he] at h
      have := Res.ok.inj h
      omega
    · rw [if_neg he] at h
      exact ih h1 h

/-- The computed invariant is at most twice the sum of the balances. -/
theorem Stable.computeD_le {L x y r : Nat} (hL : L ≠ 1) (h : Stable.computeD L x y = .ok r) :
    r ≤ 2 * (x + y) := by
  unfold Stable.computeD at h
  obtain ⟨a1, ha1, h⟩ := Res.bind_eq_ok.1 h
  obtain ⟨a2, ha2, h⟩ := Res.bind_eq_ok.1 h
  obtain ⟨b1, hb1, h⟩ := Res.bind_eq_ok.1 h
  obtain ⟨b2, hb2, h⟩ := Res.bind_eq_ok.1 h
  obtain ⟨S, hS, h⟩ := Res.bind_eq_ok.1 h
  have e5 := (cadd_eq_ok.1 hS).2
  subst e5
  by_cases h0 : x + y = 0
  · rw [if_pos h0] at h
    have := Res.ok.inj h
    omega
  rw [if_neg h0] at h
  obtain ⟨d, hd, h⟩ := Res.bind_eq_ok.1 h
  rw [(tryUint_eq_ok.1 h).2]
  rcases Nat.lt_or_ge L 2 with h2 | h2
  · have : L = 0 := by omega
    subst this
    unfold Stable.dLoop at hd
    obtain ⟨p1, _, hd⟩ := Res.bind_eq_ok.1 hd
    obtain ⟨p2, _, hd⟩ := Res.bind_eq_ok.1 hd
    obtain ⟨p3, _, hd⟩ := Res.bind_eq_ok.1 hd
    obtain ⟨p4, _, hd⟩ := Res.bind_eq_ok.1 hd
    obtain ⟨d', hs, hd⟩ := Res.bind_eq_ok.1 hd
    have := (Stable.calculateStep_ok hs).1
    omega
  · exact Stable.dLoop_le h2 (by omega) hd

/-- Truncating at the unit and then rounding down is rounding down. -/
theorem down_down {n D o q m : Nat} (ho : 0 < o) (hD : 0 < D) (h : Down (n * o) D q) :
    Down q o m ↔ Down n D m := by
  rw [down_iff hD] at h
  rw [down_iff ho, down_iff hD, h, Nat.div_div_eq_div_mul, Nat.mul_comm D, Nat.mul_comm n,
    Nat.mul_div_mul_left _ _ ho]

theorem Stable.depositSingle_eq {amp : UInt64} {x A B S o : Nat} {dir : TradeDirection}
    (ho : Spl.ONE = o) (hx : x ≠ 0) :
    Stable.depositSingle amp x A B S dir = (do
      let l ← cmul U64 amp.toNat 2
      let d0' ← Stable.computeD l A B
      let d0 ← cmul U256 d0' o
      let upd ← cadd U128 (sideOf dir A B) x
      let d1' ← Stable.computeD l upd (sideOf dir B A)
      let d1 ← cmul U256 d1' o
      let diff ← csub d1 d0
      let ps ← cmul U256 S o
      let m ← Spl.mul diff ps
      let fin ← Spl.div m d0
      Spl.floor fin >>= Spl.toImprecise) := by
  unfold Stable.depositSingle
  rw [if_neg hx, ← ho]
  cases dir <;> rfl

theorem Stable.withdrawSingle_eq {amp : UInt64} {x A B S o : Nat} {dir : TradeDirection}
    (ho : Spl.ONE = o) (hx : x ≠ 0) :
    Stable.withdrawSingle amp x A B S dir = (do
      let l ← cmul U64 amp.toNat 2
      let d0' ← Stable.computeD l A B
      let d0 ← cmul U256 d0' o
      let upd ← csub (sideOf dir A B) x
      let d1' ← Stable.computeD l upd (sideOf dir B A)
      let d1 ← cmul U256 d1' o
      let diff ← csub d0 d1
      let ps ← cmul U256 S o
      let m ← Spl.mul diff ps
      let fin ← Spl.div m d0
      Spl.ceiling fin >>= Spl.toImprecise) := by
  unfold Stable.withdrawSingle
  rw [if_neg hx, ← ho]
  cases dir <;> rfl

theorem wide_fits {d S o : Nat} (ho : Spl.ONE = o) (hd : d ≤ 8 * U64) (hS : S < U64) :
    d * o < U256 ∧ d * o * (S * o) + o < U256 ∧ d * S * o * o + o < U256 ∧
      d * S * o + 3 * o < U256 := by
  have h1 : 8 * U64 * o < U256 := by rw [← ho]; decide
  have h2 : 8 * U64 * o * (U64 * o) + o < U256 := by rw [← ho]; decide
  have h3 : 8 * U64 * U64 * o * o + o < U256 := by rw [← ho]; decide
  have h4 : 8 * U64 * U64 * o + 3 * o < U256 := by rw [← ho]; decide
  have a1 : d * o ≤ 8 * U64 * o := Nat.mul_le_mul_right _ hd
  have a2 : d * S ≤ 8 * U64 * U64 := Nat.mul_le_mul hd hS.le
  exact ⟨lt_of_le_of_lt a1 h1,
    lt_of_le_of_lt (Nat.add_le_add_right (Nat.mul_le_mul a1 (Nat.mul_le_mul_right _ hS.le)) _) h2,
    lt_of_le_of_lt (Nat.add_le_add_right (Nat.mul_le_mul_right _ (Nat.mul_le_mul_right _ a2)) _) h3,
    lt_of_le_of_lt (Nat.add_le_add_right (Nat.mul_le_mul_right _ a2) _) h4⟩

/-- `(hi − lo)·S/base` at 12 decimals, as the stable curve computes it. -/
theorem Stable.ratio_iff {hi lo base S o : Nat} {k : Nat → Res Nat} {m : Nat} (ho : Spl.ONE = o)
    (hhi : hi ≤ 8 * U64) (hS : S < U64) :
    (do
      let diff ← csub (hi * o) (lo * o)
      let ps ← cmul U256 S o
      let t ← Spl.mul diff ps
      let fin ← Spl.div t (base * o)
      k fin) = .ok m ↔
    lo ≤ hi ∧ 0 < base ∧ ∃ q, Down ((hi - lo) * S * o) base q ∧ k q = .ok m := by
  have hO : 0 < o := by rw [← ho]; decide
  have hso : S * o < U256 := lt_trans (u64_one ho hS) (by decide)
  obtain ⟨f1, f2, f3, f4⟩ := wide_fits ho (le_trans (Nat.sub_le hi lo) hhi) hS
  rw [Res.bind_eq_ok]
  constructor
  · rintro ⟨d, hd, h⟩
    obtain ⟨hd1, hd2⟩ := csub_eq_ok.1 hd
    have hle : lo ≤ hi := Nat.le_of_mul_le_mul_right hd1 hO
    rw [cmul_ok hso, Res.ok_bind, hd2, ← Nat.sub_mul, Spl.whole_mul ho f2, Res.ok_bind,
      Nat.mul_right_comm] at h
    obtain ⟨q, hq, h⟩ := Res.bind_eq_ok.1 h
    rcases Nat.eq_zero_or_pos base with hb | hb
    · exact absurd hq (Spl.div_zero (by rw [hb, Nat.zero_mul]))
    · exact ⟨hle, hb, q, (Spl.div_whole ho hb f3 q).1 hq, h⟩
  · rintro ⟨hle, hb, q, hq, h⟩
    refine ⟨_, csub_ok (Nat.mul_le_mul_right _ hle), ?_⟩
    rw [cmul_ok hso, Res.ok_bind, ← Nat.sub_mul, Spl.whole_mul ho f2, Res.ok_bind,
      Nat.mul_right_comm, (Spl.div_whole ho hb f3 q).2 hq, Res.ok_bind]
    exact h

theorem two_ne_one {a : Nat} : a * 2 ≠ 1 := by omega

theorem Stable.depositSingle_iff {amp : UInt64} {x A B S m o : Nat} {dir : TradeDirection}
    (ho : Spl.ONE = o) (hx0 : x ≠ 0) (hx : x < U64) (hA : A < U64) (hB : B < U64) (hS : S < U64) :
    Stable.depositSingle amp x A B S dir = .ok m ↔
      ∃ D0 D1, amp.toNat * 2 < U64 ∧ Stable.computeD (amp.toNat * 2) A B = .ok D0 ∧
        Stable.computeD (amp.toNat * 2) (sideOf dir A B + x) (sideOf dir B A) = .ok D1 ∧
        D0 ≤ D1 ∧ 0 < D0 ∧ m < U128 ∧ Down ((D1 - D0) * S) D0 m := by
  have hO : 0 < o := by rw [← ho]; decide
  have hu : U64 + U64 < U128 := by decide
  have hs : sideOf dir A B < U64 ∧ sideOf dir B A < U64 := by cases dir <;> simp [sideOf, hA, hB]
  rw [Stable.depositSingle_eq ho hx0]
  constructor
  · intro h
    obtain ⟨l, hl, h⟩ := Res.bind_eq_ok.1 h
    obtain ⟨hl1, rfl⟩ := cmul_eq_ok.1 hl
    obtain ⟨D0, h0, h⟩ := Res.bind_eq_ok.1 h
    obtain ⟨d0, hd0, h⟩ := Res.bind_eq_ok.1 h
    obtain ⟨_, rfl⟩ := cmul_eq_ok.1 hd0
    obtain ⟨u, hu, h⟩ := Res.bind_eq_ok.1 h
    obtain ⟨_, rfl⟩ := cadd_eq_ok.1 hu
    obtain ⟨D1, h1, h⟩ := Res.bind_eq_ok.1 h
    obtain ⟨d1, hd1, h⟩ := Res.bind_eq_ok.1 h
    obtain ⟨_, rfl⟩ := cmul_eq_ok.1 hd1
    have b1 := Stable.computeD_le two_ne_one h1
    have hb : D1 ≤ 8 * U64 := by omega
    obtain ⟨hle, hb0, q, hq, h⟩ := (Stable.ratio_iff ho hb hS).1 h
    have f4 := (wide_fits ho (le_trans (Nat.sub_le D1 D0) hb) hS).2.2.2
    have hq4 : q + o < U256 := by
      have := le_trans (Nat.le_mul_of_pos_right q hb0) hq.1
      omega
    obtain ⟨hm, hd⟩ := (Spl.floor_out ho hq4 m).1 h
    exact ⟨D0, D1, hl1, h0, h1, hle, hb0, hm, (down_down hO hb0 hq).1 hd⟩
  · rintro ⟨D0, D1, hl1, h0, h1, hle, hb0, hm, hd⟩
    have b1 := Stable.computeD_le two_ne_one h1
    have hb : D1 ≤ 8 * U64 := by omega
    have w1 := (wide_fits ho hb hS).1
    have w0 := (wide_fits ho (le_trans hle hb) hS).1
    rw [cmul_ok hl1, Res.ok_bind, h0, Res.ok_bind, cmul_ok w0, Res.ok_bind, cadd_ok (by omega),
      Res.ok_bind, h1, Res.ok_bind, cmul_ok w1, Res.ok_bind]
    have hq : Down ((D1 - D0) * S * o) D0 ((D1 - D0) * S * o / D0) := (down_iff hb0).2 rfl
    refine (Stable.ratio_iff ho hb hS).2 ⟨hle, hb0, _, hq, ?_⟩
    have f4 := (wide_fits ho (le_trans (Nat.sub_le D1 D0) hb) hS).2.2.2
    refine (Spl.floor_out ho ?_ m).2 ⟨hm, (down_down hO hb0 hq).2 hd⟩
    have := Nat.div_le_self ((D1 - D0) * S * o) D0
    omega

theorem Stable.withdrawSingle_iff {amp : UInt64} {x A B S m o : Nat} {dir : TradeDirection}
    (ho : Spl.ONE = o) (hx0 : x ≠ 0) (hA : A < U64) (hB : B < U64) (hS : S < U64) :
    Stable.withdrawSingle amp x A B S dir = .ok m ↔
      ∃ D0 D1 q, amp.toNat * 2 < U64 ∧ x ≤ sideOf dir A B ∧
        Stable.computeD (amp.toNat * 2) A B = .ok D0 ∧
        Stable.computeD (amp.toNat * 2) (sideOf dir A B - x) (sideOf dir B A) = .ok D1 ∧
        D1 ≤ D0 ∧ 0 < D0 ∧ Down ((D0 - D1) * S * o) D0 q ∧ Up q o m := by
  have hO : 0 < o := by rw [← ho]; decide
  have hs : sideOf dir A B < U64 ∧ sideOf dir B A < U64 := by cases dir <;> simp [sideOf, hA, hB]
  have hbound : ∀ {D0 D1 q}, 0 < D0 → D1 ≤ D0 → Down ((D0 - D1) * S * o) D0 q → q ≤ S * o := by
    intro D0 D1 q h0 hle hq
    have h1 : q * D0 ≤ S * o * D0 := le_trans hq.1 (by
      have : (D0 - D1) * S * o ≤ D0 * S * o :=
        Nat.mul_le_mul_right _ (Nat.mul_le_mul_right _ (Nat.sub_le _ _))
      calc _ ≤ D0 * S * o := this
        _ = S * o * D0 := by rw [Nat.mul_assoc, Nat.mul_comm])
    exact Nat.le_of_mul_le_mul_right h1 h0
  have hso : S * o + 3 * o < U128 := by
    have h1 : U64 * o + 3 * o < U128 := by rw [← ho]; decide
    exact lt_of_le_of_lt (Nat.add_le_add_right (Nat.mul_le_mul_right _ hS.le) _) h1
  have hww : U128 < U256 := by decide
  rw [Stable.withdrawSingle_eq ho hx0]
  constructor
  · intro h
    obtain ⟨l, hl, h⟩ := Res.bind_eq_ok.1 h
    obtain ⟨hl1, rfl⟩ := cmul_eq_ok.1 hl
    obtain ⟨D0, h0, h⟩ := Res.bind_eq_ok.1 h
    obtain ⟨d0, hd0, h⟩ := Res.bind_eq_ok.1 h
    obtain ⟨_, rfl⟩ := cmul_eq_ok.1 hd0
    obtain ⟨u, hu, h⟩ := Res.bind_eq_ok.1 h
    obtain ⟨hxle, rfl⟩ := csub_eq_ok.1 hu
    obtain ⟨D1, h1, h⟩ := Res.bind_eq_ok.1 h
    obtain ⟨d1, hd1, h⟩ := Res.bind_eq_ok.1 h
    obtain ⟨_, rfl⟩ := cmul_eq_ok.1 hd1
    have b0 := Stable.computeD_le two_ne_one h0
    have hb : D0 ≤ 8 * U64 := by omega
    obtain ⟨hle, hb0, q, hq, h⟩ := (Stable.ratio_iff ho hb hS).1 h
    have hq1 := hbound hb0 hle hq
    obtain ⟨hm, hd⟩ := (Spl.ceiling_out ho (by omega) m).1 h
    exact ⟨D0, D1, q, hl1, hxle, h0, h1, hle, hb0, hq, hd⟩
  · rintro ⟨D0, D1, q, hl1, hxle, h0, h1, hle, hb0, hq, hd⟩
    have b0 := Stable.computeD_le two_ne_one h0
    have hb : D0 ≤ 8 * U64 := by omega
    have w0 := (wide_fits ho hb hS).1
    have w1 := (wide_fits ho (le_trans hle hb) hS).1
    rw [cmul_ok hl1, Res.ok_bind, h0, Res.ok_bind, cmul_ok w0, Res.ok_bind, csub_ok hxle,
      Res.ok_bind, h1, Res.ok_bind, cmul_ok w1, Res.ok_bind]
    refine (Stable.ratio_iff ho hb hS).2 ⟨hle, hb0, _, hq, ?_⟩
    have hq1 := hbound hb0 hle hq
    refine (Spl.ceiling_out ho (by omega) m).2 ⟨?_, hd⟩
    have := lt_of_le_of_lt (Nat.le_mul_of_pos_right m hO) hd.2
    omega

end Verif
