import Mathlib.Tactic.Ring
import Mathlib.Tactic.Linarith
import Verif.Spec.Shares
import Verif.Lemmas.Exchange

/-
Exact outcomes of the pool-token conversions.
-/

namespace Verif
open Spec

theorem down_iff {a b q : Nat} (hb : 0 < b) : Down a b q ↔ q = a / b := by
  unfold Down
  constructor
  · rintro ⟨h1, h2⟩
    apply le_antisymm
    · exact (Nat.le_div_iff_mul_le hb).2 h1
    · have := (Nat.div_lt_iff_lt_mul hb).2 h2
      omega
  · rintro rfl
    refine ⟨Nat.div_mul_le_self _ _, ?_⟩
    have := Nat.lt_div_mul_add hb (a := a)
    rw [Nat.add_mul, Nat.one_mul]
    exact this

theorem up_iff {a b q : Nat} (hb : 0 < b) : Up a b q ↔ q = cd a b := by
  unfold Up
  constructor
  · rintro ⟨h1, h2⟩
    exact (cd_eq hb h1 h2).symm
  · rintro rfl
    refine ⟨le_cd_mul hb, ?_⟩
    by_contra hc
    have h1 : 0 < cd a b := by
      by_contra h0
      rw [Nat.eq_zero_of_not_pos h0, Nat.zero_mul] at hc
      omega
    have h2 : a ≤ (cd a b - 1) * b := by
      rw [Nat.sub_mul, Nat.one_mul]; omega
    have := (cd_le_iff hb).2 h2
    omega

/-- Ceiling division that did not yield zero rounded up. -/
theorem ceilDiv_up {h : Bool} {lim a b q d : Nat} (he : Spl.ceilDiv h lim a b = .ok (q, d))
    (hq : 0 < q) : Up a b q := by
  obtain ⟨hb, hc⟩ := ceilDiv_ok he
  rcases hc with ⟨hlt, _, hq1, _⟩ | ⟨_, _, h3, h4, _⟩
  · have e1 : q = 1 := by omega
    rw [e1]
    unfold Up
    rw [Nat.one_mul]
    refine ⟨by omega, ?_⟩
    by_contra hc
    have ha : a = 0 := by omega
    rw [ha] at he
    unfold Spl.ceilDiv at he
    rw [cdiv_ok (by omega), Res.ok_bind, Nat.zero_div, if_pos rfl] at he
    split at he
    · rw [Res.bind_eq_ok] at he
      obtain ⟨a2, ha2, he⟩ := he
      have := (cmul_eq_ok.1 ha2).2
      rw [if_neg (by omega)] at he
      have := (Prod.mk.inj (Res.ok.inj he)).1
      omega
    · cases he
  · unfold Up
    refine ⟨h3, ?_⟩
    rw [Nat.sub_mul, Nat.one_mul] at h4
    have : b ≤ q * b := Nat.le_mul_of_pos_left _ hq
    omega

/-! ### Proportional curves -/

theorem ConstantProduct.share_floor {pt S A B : Nat} (hA : pt * A < U128) (r : TradingTokenResult) :
    poolTokensToTradingTokens pt S A B .Floor = .ok r ↔
      0 < S ∧ pt * B < U128 ∧ Down (pt * A) S r.token_a_amount ∧
        Down (pt * B) S r.token_b_amount := by
  unfold poolTokensToTradingTokens
  rw [cmul_ok hA, Res.ok_bind]
  by_cases hS : S = 0
  · rw [hS, show cdiv (pt * A) 0 = .none from if_pos rfl]
    exact ⟨nofun, fun h => absurd h.1 (by omega)⟩
  · have hS' : 0 < S := Nat.pos_of_ne_zero hS
    rw [cdiv_ok hS, Res.ok_bind]
    by_cases hB : pt * B < U128
    · rw [cmul_ok hB, Res.ok_bind, cdiv_ok hS, Res.ok_bind, down_iff hS', down_iff hS']
      constructor
      · intro h
        rw [← Res.ok.inj h]
        exact ⟨hS', hB, rfl, rfl⟩
      · rintro ⟨_, _, h1, h2⟩
        rw [← h1, ← h2]
    · rw [show cmul U128 pt B = .none from if_neg hB]
      exact ⟨nofun, fun h => absurd h.2.1 hB⟩

theorem upWhole_iff {a b q : Nat} (hb : 0 < b) :
    UpWhole a b q ↔ q = if 0 < a % b ∧ 0 < a / b then a / b + 1 else a / b := by
  unfold UpWhole
  by_cases h : a < b
  · rw [if_pos h, Nat.div_eq_of_lt h, if_neg (by omega)]
  · rw [if_neg h, up_iff hb]
    have h1 : 0 < a / b := Nat.div_pos (by omega) hb
    have hdm := Nat.div_add_mod a b
    have hml := Nat.mod_lt a hb
    by_cases hr : 0 < a % b
    · rw [if_pos ⟨hr, h1⟩, cd_eq hb (q := a / b + 1)]
      · rw [Nat.add_mul, Nat.one_mul, Nat.mul_comm]; omega
      · rw [Nat.add_mul, Nat.one_mul, Nat.mul_comm]; omega
    · rw [if_neg (by omega), cd_eq hb (q := a / b)]
      · rw [Nat.mul_comm]; omega
      · rw [Nat.mul_comm]; omega

theorem ConstantProduct.share_ceil {pt S A B : Nat} (hA : pt * A < U128) (r : TradingTokenResult) :
    poolTokensToTradingTokens pt S A B .Ceiling = .ok r ↔
      0 < S ∧ pt * B < U128 ∧ UpWhole (pt * A) S r.token_a_amount ∧
        UpWhole (pt * B) S r.token_b_amount := by
  unfold poolTokensToTradingTokens
  rw [cmul_ok hA, Res.ok_bind]
  by_cases hS : S = 0
  · rw [hS, show cdiv (pt * A) 0 = .none from if_pos rfl]
    exact ⟨nofun, fun h => absurd h.1 (by omega)⟩
  · have hS' : 0 < S := Nat.pos_of_ne_zero hS
    rw [cdiv_ok hS, Res.ok_bind]
    by_cases hB : pt * B < U128
    · rw [cmul_ok hB, Res.ok_bind, cdiv_ok hS, Res.ok_bind, upWhole_iff hS', upWhole_iff hS']
      simp only []
      rw [crem_ok hS, Res.ok_bind, crem_ok hS, Res.ok_bind]
      constructor
      · intro h
        rw [← Res.ok.inj h]
        exact ⟨hS', hB, rfl, rfl⟩
      · rintro ⟨_, _, h1, h2⟩
        rw [← h1, ← h2]
    · rw [show cmul U128 pt B = .none from if_neg hB]
      exact ⟨nofun, fun h => absurd h.2.1 hB⟩

/-! ### Constant price -/

theorem U64_sq : (U64 - 1) * (U64 - 1) + U64 < U128 := by decide

theorem worth_lt {p : UInt64} {A B : Nat} (hA : A < U64) (hB : B < U64) :
    worth p.toNat A B < U128 := by
  have hp : p.toNat < U64 := UInt64.toNat_lt p
  have h1 : p.toNat * B ≤ (U64 - 1) * (U64 - 1) := Nat.mul_le_mul (by omega) (by omega)
  have h2 := U64_sq
  unfold worth
  omega

theorem ConstantPrice.half_ok {p : UInt64} {A B : Nat} (hA : A < U64) (hB : B < U64) :
    ∃ nv, normalizedValue p A B = .ok nv ∧ Spl.toImprecise nv = .ok (halfWorth p.toNat A B) := by
  have hw := worth_lt (p := p) hA hB
  have hb : B * p.toNat < U128 := by
    unfold worth at hw
    rw [Nat.mul_comm]; omega
  have hlim : U128 * Spl.ONE + Spl.ONE < U256 := by decide
  have hone : 0 < Spl.ONE := by decide
  have hv : halfWorth p.toNat A B < U128 := by unfold halfWorth; omega
  have hv1 : halfWorth p.toNat A B * Spl.ONE < U256 := by
    have := Nat.mul_le_mul_right Spl.ONE (le_of_lt hv)
    omega
  refine ⟨halfWorth p.toNat A B * Spl.ONE, ?_, ?_⟩
  · unfold normalizedValue
    rw [cmul_ok hb, Res.ok_bind]
    rw [if_neg (by rw [U128_val, U64_val] at *; omega)]
    have ew : A + B * p.toNat = worth p.toNat A B := by unfold worth; rw [Nat.mul_comm B]
    rw [cadd_ok (by rw [ew]; exact hw), Res.ok_bind, cdiv_ok (by decide), Res.ok_bind, ew]
    exact cmul_ok hv1
  · unfold Spl.toImprecise
    rw [cadd_ok (by
      have := Nat.mul_le_mul_right Spl.ONE (le_of_lt hv)
      have : Spl.ONE / 2 ≤ Spl.ONE := Nat.div_le_self _ _
      omega), Res.ok_bind, cdiv_ok (by decide), Res.ok_bind]
    have e : (halfWorth p.toNat A B * Spl.ONE + Spl.ONE / 2) / Spl.ONE = halfWorth p.toNat A B := by
      unfold Spl.ONE
      omega
    rw [e]
    exact asUint_ok hv

theorem ConstantPrice.share_floor {e : SplEnv} {p : UInt64} {pt S A B : Nat} (hA : A < U64)
    (hB : B < U64) (r : TradingTokenResult) :
    poolTokensToTradingTokens e p pt S A B .Floor = .ok r ↔
      0 < S ∧ 0 < p.toNat ∧ pt * halfWorth p.toNat A B < U128 ∧
        Down (pt * halfWorth p.toNat A B) S r.token_a_amount ∧
        Down (pt * halfWorth p.toNat A B) (p.toNat * S) r.token_b_amount := by
  obtain ⟨nv, h1, h2⟩ := half_ok (p := p) hA hB
  unfold poolTokensToTradingTokens
  rw [h1, Res.ok_bind, h2, Res.ok_bind]
  simp only []
  by_cases hm : pt * halfWorth p.toNat A B < U128
  · rw [cmul_ok hm, Res.ok_bind]
    by_cases hS : S = 0
    · rw [hS, show cdiv _ 0 = .none from if_pos rfl]
      exact ⟨nofun, fun h => absurd h.1 (by omega)⟩
    · have hS' : 0 < S := Nat.pos_of_ne_zero hS
      rw [cdiv_ok hS, Res.ok_bind]
      by_cases hp : p.toNat = 0
      · rw [hp, show cdiv _ 0 = .none from if_pos rfl]
        exact ⟨nofun, fun h => absurd h.2.1 (by omega)⟩
      · have hp' : 0 < p.toNat := Nat.pos_of_ne_zero hp
        rw [cdiv_ok hp, Res.ok_bind, cdiv_ok hS, Res.ok_bind, down_iff hS',
          down_iff (Nat.mul_pos hp' hS'), Nat.div_div_eq_div_mul]
        constructor
        · intro h
          rw [← Res.ok.inj h]
          exact ⟨hS', hp', hm, rfl, rfl⟩
        · rintro ⟨_, _, _, h1, h2⟩
          rw [← h1, ← h2]
  · rw [show cmul U128 pt _ = .none from if_neg hm]
    exact ⟨nofun, fun h => absurd h.2.2.1 hm⟩

theorem up_up {m p S b1 b : Nat} (h1 : Up m p b1) (h2 : Up b1 S b) (hS : 0 < S) :
    Up m (p * S) b := by
  obtain ⟨a1, a2⟩ := h1
  obtain ⟨c1, c2⟩ := h2
  refine ⟨?_, ?_⟩
  · calc m ≤ b1 * p := a1
      _ ≤ b * S * p := Nat.mul_le_mul_right _ c1
      _ = b * (p * S) := by ring
  · have h : (b * S) * p ≤ (b1 + (S - 1)) * p := Nat.mul_le_mul_right _ (by omega)
    have e1 : (b1 + (S - 1)) * p = b1 * p + (S - 1) * p := Nat.add_mul _ _ _
    have e2 : (S - 1) * p + p = p * S := by
      rw [Nat.sub_mul, Nat.one_mul, Nat.mul_comm p S]
      have : p ≤ S * p := Nat.le_mul_of_pos_left _ hS
      omega
    have e3 : b * (p * S) = b * S * p := by ring
    omega

theorem ConstantPrice.share_ceil {e : SplEnv} {p : UInt64} {pt S A B : Nat} (hA : A < U64)
    (hB : B < U64) {r : TradingTokenResult}
    (h : poolTokensToTradingTokens e p pt S A B .Ceiling = .ok r)
    (ha0 : 0 < r.token_a_amount) (hb0 : 0 < r.token_b_amount) :
    0 < S ∧ 0 < p.toNat ∧ pt * halfWorth p.toNat A B < U128 ∧
      Up (pt * halfWorth p.toNat A B) S r.token_a_amount ∧
      Up (pt * halfWorth p.toNat A B) (p.toNat * S) r.token_b_amount := by
  obtain ⟨nv, h1, h2⟩ := half_ok (p := p) hA hB
  unfold poolTokensToTradingTokens at h
  simp only [] at h
  rw [h1, Res.ok_bind, h2, Res.ok_bind, Res.bind_eq_ok] at h
  obtain ⟨m, hm, h⟩ := h
  rw [Res.bind_eq_ok] at h
  obtain ⟨a, ha, h⟩ := h
  rw [Res.bind_eq_ok] at h
  obtain ⟨b1, hb1, h⟩ := h
  rw [Res.bind_eq_ok] at h
  obtain ⟨b, hb, h⟩ := h
  obtain ⟨hlt, em⟩ := cmul_eq_ok.1 hm
  rw [← Res.ok.inj h] at ha0 hb0 ⊢
  simp only [] at ha0 hb0 ⊢
  have hS := (ceilDiv_ok (q := a.1) (d := a.2) ha).1
  have hp := (ceilDiv_ok (q := b1.1) (d := b1.2) hb1).1
  have u1 := ceilDiv_up (q := a.1) (d := a.2) ha ha0
  have u2 := ceilDiv_up (q := b.1) (d := b.2) hb hb0
  have hb1pos : 0 < b1.1 := by
    have := u2.2
    have : S ≤ b.1 * S := Nat.le_mul_of_pos_left _ hb0
    omega
  have u3 := ceilDiv_up (q := b1.1) (d := b1.2) hb1 hb1pos
  rw [← em]
  exact ⟨hS, hp, by rw [em]; exact hlt, u1, up_up u3 u2 hS⟩

theorem ConstantPrice.share_ceil_of {e : SplEnv} {p : UInt64} {pt S A B : Nat} (hA : A < U64)
    (hB : B < U64) (hS : 0 < S) (hp : 0 < p.toNat) (hlt : pt * halfWorth p.toNat A B < U128)
    (hge : p.toNat * S ≤ pt * halfWorth p.toNat A B) :
    ∃ r, poolTokensToTradingTokens e p pt S A B .Ceiling = .ok r ∧ 0 < r.token_a_amount ∧
      0 < r.token_b_amount := by
  obtain ⟨nv, h1, h2⟩ := half_ok (p := p) hA hB
  have g1 : S ≤ pt * halfWorth p.toNat A B := le_trans (Nat.le_mul_of_pos_left _ hp) hge
  have g2 : p.toNat ≤ pt * halfWorth p.toNat A B := le_trans (Nat.le_mul_of_pos_right _ hS) hge
  unfold poolTokensToTradingTokens
  simp only []
  rw [h1, Res.ok_bind, h2, Res.ok_bind, cmul_ok hlt, Res.ok_bind, ceilDiv_eq hS g1 hlt, Res.ok_bind,
    ceilDiv_eq hp g2 hlt, Res.ok_bind]
  simp only []
  generalize pt * halfWorth p.toNat A B = m at *
  have g3 : S ≤ cd m p.toNat := by
    by_contra hc
    have : m ≤ (S - 1) * p.toNat := (cd_le_iff hp).1 (by omega)
    have e2 : (S - 1) * p.toNat + p.toNat = p.toNat * S := by
      rw [Nat.sub_mul, Nat.one_mul, Nat.mul_comm p.toNat S]
      have : p.toNat ≤ S * p.toNat := Nat.le_mul_of_pos_left _ hS
      omega
    omega
  have g4 : cd m p.toNat < U128 := by
    have : cd m p.toNat ≤ m := (cd_le_iff hp).2 (Nat.le_mul_of_pos_right _ hp)
    omega
  rw [ceilDiv_eq hS g3 g4, Res.ok_bind]
  refine ⟨_, rfl, ?_, ?_⟩
  · show 0 < cd m S
    by_contra hc
    have := (cd_le_iff hS).1 (show cd m S ≤ 0 by omega)
    omega
  · show 0 < cd (cd m p.toNat) S
    by_contra hc
    have := (cd_le_iff hS).1 (show cd (cd m p.toNat) S ≤ 0 by omega)
    omega

/-- The core of single-sided operations: the value given and the pool's value never overflow. -/
theorem ConstantPrice.trading_floor_iff {e : SplEnv} {p : UInt64} {s A B S m : Nat}
    {dir : TradeDirection} (hs : s < U64) (hA : A < U64) (hB : B < U64) (hS : S < U64) :
    tradingTokensToPoolTokens e p s A B S dir .Floor = .ok m ↔
      0 < worth p.toNat A B ∧ m < U128 ∧ Down (S * worthOf p.toNat dir s) (worth p.toNat A B) m := by
  have hp : p.toNat < U64 := UInt64.toNat_lt p
  have hw := worth_lt (p := p) hA hB
  have hlim : U64 * U128 < U256 := by decide
  have h128 : U64 * U64 = U128 := by decide
  have hgen : worthOf p.toNat dir s < U128 := by
    have h1 : p.toNat * s ≤ (U64 - 1) * (U64 - 1) := Nat.mul_le_mul (by omega) (by omega)
    have h2 := U64_sq
    cases dir
    · show s < U128; omega
    · show p.toNat * s < U128; omega
  constructor
  · intro h
    obtain ⟨h1, h2⟩ := trading_floor h
    have hpos := Nat.pos_of_ne_zero h2
    refine ⟨hpos, ?_, (down_iff hpos).2 h1⟩
    unfold tradingTokensToPoolTokens at h
    have key : ∀ g : Res Nat, (do
        let given ← g
        let tb ← cmul U256 B p.toNat
        let total ← cadd U256 tb A
        let m ← cmul U256 S given
        let q ← cdiv m total
        asUint U128 q) = .ok m → m < U128 := by
      intro g h
      rw [Res.bind_eq_ok] at h
      obtain ⟨_, _, h⟩ := h
      rw [Res.bind_eq_ok] at h
      obtain ⟨_, _, h⟩ := h
      rw [Res.bind_eq_ok] at h
      obtain ⟨_, _, h⟩ := h
      rw [Res.bind_eq_ok] at h
      obtain ⟨_, _, h⟩ := h
      rw [Res.bind_eq_ok] at h
      obtain ⟨q, _, h⟩ := h
      obtain ⟨h1, h2⟩ := asUint_eq_ok.1 h
      omega
    cases dir
    · exact key _ h
    · exact key _ h
  · rintro ⟨h1, h2, h3⟩
    have h3 := (down_iff h1).1 h3
    have ew : B * p.toNat + A = worth p.toNat A B := by
      unfold worth; rw [Nat.mul_comm B, Nat.add_comm]
    have key : ∀ g, g = worthOf p.toNat dir s → (do
        let tb ← cmul U256 B p.toNat
        let total ← cadd U256 tb A
        let m ← cmul U256 S g
        let q ← cdiv m total
        asUint U128 q) = .ok m := by
      rintro g rfl
      have hU : U128 < U256 := by decide
      have hm : S * worthOf p.toNat dir s < U256 :=
        lt_of_le_of_lt (Nat.mul_le_mul (le_of_lt hS) (le_of_lt hgen)) hlim
      rw [cmul_ok (by omega), Res.ok_bind, cadd_ok (by omega), Res.ok_bind, ew, cmul_ok hm,
        Res.ok_bind, cdiv_ok (by omega), Res.ok_bind, ← h3]
      exact asUint_ok h2
    unfold tradingTokensToPoolTokens
    cases dir
    · exact key s rfl
    · simp only []
      have hc : s * p.toNat < U256 := by
        have : p.toNat * s < U128 := hgen
        have hU : U128 < U256 := by decide
        rw [Nat.mul_comm]; omega
      rw [cmul_ok hc, Res.ok_bind]
      exact key _ (Nat.mul_comm _ _)

theorem ConstantPrice.trading_ceil_up {e : SplEnv} {p : UInt64} {s A B S m : Nat}
    {dir : TradeDirection} (h : tradingTokensToPoolTokens e p s A B S dir .Ceiling = .ok m)
    (hm : 0 < m) : Up (S * worthOf p.toNat dir s) (worth p.toNat A B) m := by
  obtain ⟨d, hd⟩ := trading_ceil h
  exact ceilDiv_up hd hm

theorem ConstantPrice.trading_ceil_of {e : SplEnv} {p : UInt64} {s A B S : Nat}
    {dir : TradeDirection} (hs : s < U64) (hA : A < U64) (hB : B < U64)
    (hpos : 0 < worth p.toNat A B) (hge : worth p.toNat A B ≤ S * worthOf p.toNat dir s)
    (hlt : S * worthOf p.toNat dir s < U128) :
    ∃ m, tradingTokensToPoolTokens e p s A B S dir .Ceiling = .ok m ∧ 0 < m := by
  have hp : p.toNat < U64 := UInt64.toNat_lt p
  have hw := worth_lt (p := p) hA hB
  have hU : U128 < U256 := by decide
  have ew : B * p.toNat + A = worth p.toNat A B := by
    unfold worth; rw [Nat.mul_comm B, Nat.add_comm]
  have key : ∀ g, g = worthOf p.toNat dir s → ∃ m, (do
      let tb ← cmul U256 B p.toNat
      let total ← cadd U256 tb A
      let m ← cmul U256 S g
      let q ← Spl.ceilDiv e.ceilZeroHalf U256 m total
      asUint U128 q.1) = .ok m ∧ 0 < m := by
    rintro g rfl
    rw [cmul_ok (by omega), Res.ok_bind, cadd_ok (by omega), Res.ok_bind, ew, cmul_ok (by omega),
      Res.ok_bind, ceilDiv_eq hpos hge (by omega), Res.ok_bind]
    simp only []
    refine ⟨_, asUint_ok ?_, ?_⟩
    · have := (cd_le_iff hpos).2 (Nat.le_mul_of_pos_right (S * worthOf p.toNat dir s) hpos)
      omega
    · by_contra hc
      have := (cd_le_iff hpos).1 (show cd (S * worthOf p.toNat dir s) (worth p.toNat A B) ≤ 0 by omega)
      omega
  unfold tradingTokensToPoolTokens
  cases dir
  · exact key s rfl
  · simp only []
    have hc : s * p.toNat < U256 := by
      have h1 : p.toNat * s ≤ (U64 - 1) * (U64 - 1) := Nat.mul_le_mul (by omega) (by omega)
      have h2 := U64_sq
      rw [Nat.mul_comm]; omega
    rw [cmul_ok hc, Res.ok_bind]
    exact key _ (Nat.mul_comm _ _)

/-- The trade fee on half an amount never exceeds the amount. -/
theorem counted_ok {f : Fees} (hv : f.validate = .ok ()) {s : Nat} (hs : s < U64) (h0 : s ≠ 0) :
    ∃ fee, f.tradingFee (max 1 (s / 2)) = .ok fee ∧ csub s fee = .ok (counted f s) ∧ fee ≤ s := by
  have hvf := (Fees.validate_ok.1 hv).1
  have hm : max 1 (s / 2) < U64 := by omega
  refine ⟨_, feeOf_ok hm hvf, ?_, ?_⟩
  all_goals
    have hle : feeOf f.trade_fee_numerator.toNat f.trade_fee_denominator.toNat (max 1 (s / 2)) ≤ s := by
      have hfr := validateFraction_ok.1 hvf
      unfold feeOf
      split
      · omega
      · rename_i hn
        rcases hfr with ⟨z, _⟩ | hlt
        · exact absurd (Or.inl z) hn
        · have : max 1 (s / 2) * f.trade_fee_numerator.toNat / f.trade_fee_denominator.toNat ≤
              max 1 (s / 2) := by
            apply Nat.div_le_of_le_mul
            rw [Nat.mul_comm]
            exact Nat.mul_le_mul_right _ (le_of_lt hlt)
          omega
  · exact csub_ok hle
  · exact hle

end Verif
