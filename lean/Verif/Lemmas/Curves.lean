import Verif.Lemmas.Basic
import Verif.Lemmas.LinearSwap
import Verif.Spec.Pools

/-
Facts about fees, ceiling division and the value-based curves.
-/

namespace Verif

theorem mapZero_ok {x y : Nat} (h : mapZeroToNone x = .ok y) : y = x ∧ x ≠ 0 := by
  unfold mapZeroToNone at h
  split at h
  · cases h
  · rename_i hx; exact ⟨(Res.ok.inj h).symm, hx⟩

/-! ### Ceiling division -/

theorem ceilDiv_ok {h : Bool} {lim a b q d : Nat} (he : Spl.ceilDiv h lim a b = .ok (q, d)) :
    0 < b ∧ ((a < b ∧ d = 0 ∧ q ≤ 1 ∧ (q = 0 → 2 * a < b)) ∨
      (b ≤ a ∧ 0 < q ∧ a ≤ q * b ∧ (q - 1) * b < a ∧ a ≤ q * d ∧ d ≤ b)) := by
  unfold Spl.ceilDiv at he
  rw [Res.bind_eq_ok] at he
  obtain ⟨q0, hq0, he⟩ := he
  obtain ⟨hb, hq0⟩ := cdiv_eq_ok.1 hq0
  have hb' : 0 < b := Nat.pos_of_ne_zero hb
  refine ⟨hb', ?_⟩
  split at he
  · rename_i hz
    have hlt : a < b := by
      rw [hq0] at hz
      exact (Nat.div_eq_zero_iff.1 hz).resolve_left hb
    left
    split at he
    · rw [Res.bind_eq_ok] at he
      obtain ⟨a2, ha2, he⟩ := he
      have e := (cmul_eq_ok.1 ha2).2
      split at he
      · have := Res.ok.inj he
        rw [Prod.mk.injEq] at this
        exact ⟨hlt, this.2.symm, by omega, by omega⟩
      · have := Res.ok.inj he
        rw [Prod.mk.injEq] at this
        exact ⟨hlt, this.2.symm, by omega, by omega⟩
    · cases he
  · rename_i hz
    have hge : b ≤ a := by
      by_contra hc
      apply hz
      rw [hq0]
      exact Nat.div_eq_of_lt (by omega)
    right
    rw [Res.bind_eq_ok] at he
    obtain ⟨r, hr, he⟩ := he
    have er := (crem_eq_ok.1 hr).2
    have hdm : b * (a / b) + a % b = a := Nat.div_add_mod a b
    have hrb : a % b < b := Nat.mod_lt _ hb'
    rw [← hq0, ← er] at hdm
    rw [← er] at hrb
    split at he
    · rename_i hr0
      rw [Res.bind_eq_ok] at he
      obtain ⟨q', hq', he⟩ := he
      have eq' := (cadd_eq_ok.1 hq').2
      rw [Res.bind_eq_ok] at he
      obtain ⟨b', hb1, he⟩ := he
      obtain ⟨hne, eb'⟩ := cdiv_eq_ok.1 hb1
      rw [Res.bind_eq_ok] at he
      obtain ⟨r', hr', he⟩ := he
      have er' := (crem_eq_ok.1 hr').2
      have hdm' : q' * (a / q') + a % q' = a := Nat.div_add_mod a q'
      rw [← eb', ← er'] at hdm'
      have hq'pos : 0 < q' := by omega
      have hab : a < q' * b := by
        rw [eq', Nat.add_mul, Nat.one_mul, Nat.mul_comm q0 b]
        omega
      have hqb : (q' - 1) * b < a := by
        have : q' - 1 = q0 := by omega
        rw [this, Nat.mul_comm]; omega
      split at he
      · rename_i hr'0
        rw [Res.bind_eq_ok] at he
        obtain ⟨b'', hb'', he⟩ := he
        have eb'' := (cadd_eq_ok.1 hb'').2
        have := Res.ok.inj he
        rw [Prod.mk.injEq] at this
        obtain ⟨rfl, rfl⟩ := this
        refine ⟨hge, hq'pos, le_of_lt hab, hqb, ?_, ?_⟩
        · have hr'lt : r' < q' := by rw [er']; exact Nat.mod_lt _ hq'pos
          rw [eb'', Nat.mul_add, Nat.mul_one]
          omega
        · -- b' + 1 ≤ b
          rw [eb'']
          have : q' * b' < q' * b := by omega
          exact Nat.lt_of_mul_lt_mul_left this
      · have := Res.ok.inj he
        rw [Prod.mk.injEq] at this
        obtain ⟨rfl, rfl⟩ := this
        refine ⟨hge, hq'pos, le_of_lt hab, hqb, by omega, ?_⟩
        have : q' * b' ≤ q' * b := by omega
        exact Nat.le_of_mul_le_mul_left this hq'pos
    · have := Res.ok.inj he
      rw [Prod.mk.injEq] at this
      obtain ⟨rfl, rfl⟩ := this
      have hq0pos : 0 < q0 := Nat.pos_of_ne_zero hz
      have e : q0 * b = a := by rw [Nat.mul_comm]; omega
      refine ⟨hge, hq0pos, by omega, ?_, by omega, le_refl _⟩
      have : (q0 - 1) * b < q0 * b := Nat.mul_lt_mul_of_pos_right (by omega) hb'
      omega

/-- A positive rounded-up quotient really is at least the quotient. -/
theorem ceilDiv_ge {h : Bool} {lim a b q d : Nat} (he : Spl.ceilDiv h lim a b = .ok (q, d))
    (hq : 0 < q) : a ≤ q * b := by
  obtain ⟨hb, hc⟩ := ceilDiv_ok he
  rcases hc with ⟨hlt, _, hq1, _⟩ | ⟨_, _, h3, _⟩
  · have : q = 1 := by omega
    rw [this, Nat.one_mul]; omega
  · exact h3

/-- The rounded-up quotient exceeds the quotient by less than one. -/
theorem ceilDiv_lt {h : Bool} {lim a b q d : Nat} (he : Spl.ceilDiv h lim a b = .ok (q, d)) :
    (q - 1) * b ≤ a := by
  obtain ⟨hb, hc⟩ := ceilDiv_ok he
  rcases hc with ⟨hlt, _, hq1, _⟩ | ⟨_, _, _, h4, _⟩
  · have : q - 1 = 0 := by omega
    rw [this, Nat.zero_mul]; exact Nat.zero_le _
  · exact le_of_lt h4

/-! ### Fees -/

theorem validateFraction_ok {num den : UInt64} :
    validateFraction num den = .ok () ↔
      (num.toNat = 0 ∧ den.toNat = 0) ∨ num.toNat < den.toNat := by
  have z : ∀ x : UInt64, x = 0 ↔ x.toNat = 0 := fun x => by
    rw [← UInt64.toNat_inj]; rfl
  unfold validateFraction
  simp only [z]
  split
  · rename_i h
    exact ⟨fun _ => Or.inl ⟨h.2, h.1⟩, fun _ => rfl⟩
  · rename_i h
    split
    · rename_i h2
      rw [ge_iff_le, UInt64.le_iff_toNat_le] at h2
      constructor
      · intro hh; cases hh
      · rintro (hh | hh)
        · exact absurd ⟨hh.2, hh.1⟩ h
        · omega
    · rename_i h2
      rw [ge_iff_le, UInt64.le_iff_toNat_le] at h2
      exact ⟨fun _ => Or.inr (by omega), fun _ => rfl⟩

theorem Except_bind_ok {ε α β : Type} {x : Except ε α} {f : α → Except ε β} {b : β} :
    (x >>= f) = .ok b ↔ ∃ a, x = .ok a ∧ f a = .ok b := by
  cases x with
  | error e => constructor
               · intro h; cases h
               · rintro ⟨a, h, _⟩; cases h
  | ok a => constructor
            · intro h; exact ⟨a, rfl, h⟩
            · rintro ⟨a', h, h2⟩; cases h; exact h2

theorem Fees.validate_ok {f : Fees} : f.validate = .ok () ↔
    validateFraction f.trade_fee_numerator f.trade_fee_denominator = .ok () ∧
    validateFraction f.owner_trade_fee_numerator f.owner_trade_fee_denominator = .ok () ∧
    validateFraction f.owner_withdraw_fee_numerator f.owner_withdraw_fee_denominator = .ok () ∧
    validateFraction f.host_fee_numerator f.host_fee_denominator = .ok () := by
  unfold Fees.validate
  rw [Except_bind_ok]
  constructor
  · rintro ⟨_, h1, h⟩
    rw [Except_bind_ok] at h
    obtain ⟨_, h2, h⟩ := h
    rw [Except_bind_ok] at h
    obtain ⟨_, h3, h⟩ := h
    exact ⟨h1, h2, h3, h⟩
  · rintro ⟨h1, h2, h3, h4⟩
    refine ⟨(), h1, ?_⟩
    rw [Except_bind_ok]
    refine ⟨(), h2, ?_⟩
    rw [Except_bind_ok]
    exact ⟨(), h3, h4⟩

theorem calculateFee_eq {x num den : Nat} (hx : x < 18446744073709551616)
    (hn : num < 18446744073709551616) (hd : num = 0 ∨ den ≠ 0) :
    calculateFee x num den =
      .ok (if num = 0 ∨ x = 0 then 0 else max 1 (x * num / den)) := by
  unfold calculateFee
  by_cases h0 : num = 0 ∨ x = 0
  · rw [if_pos h0, if_pos h0]
  · rw [if_neg h0, if_neg h0]
    have hlt : x * num < U128 := by
      have : x * num < 18446744073709551616 * 18446744073709551616 := Nat.mul_lt_mul'' hx hn
      refine lt_of_lt_of_le this ?_
      rw [U128_val]
    have hden : den ≠ 0 := by
      rcases hd with h | h
      · exact absurd (Or.inl h) h0
      · exact h
    rw [cmul_ok hlt, Res.ok_bind, cdiv_ok hden, Res.ok_bind]
    split
    · rename_i hz; rw [hz]; rfl
    · rename_i hz
      congr 1
      exact (max_eq_right (Nat.pos_of_ne_zero hz)).symm

/-! ### Constant price -/

namespace ConstantPrice

theorem swap_ok {p : UInt64} {s : Nat} {dir : TradeDirection} {r : SwapWithoutFeesResult}
    (h : swapWithoutFees p s dir = .ok r) :
    r.source_amount_swapped ≤ s ∧ r.source_amount_swapped ≠ 0 ∧ r.destination_amount_swapped ≠ 0 ∧
    (match dir with
      | .AtoB => r.source_amount_swapped = p.toNat * r.destination_amount_swapped ∧
          r.destination_amount_swapped = s / p.toNat
      | .BtoA => r.destination_amount_swapped = p.toNat * r.source_amount_swapped ∧
          r.source_amount_swapped = s) := by
  have fin : ∀ {x y : Nat}, (do
      let s ← mapZeroToNone x
      let d ← mapZeroToNone y
      (.ok ⟨s, d⟩ : Res SwapWithoutFeesResult)) = .ok r →
      r.source_amount_swapped = x ∧ r.destination_amount_swapped = y ∧ x ≠ 0 ∧ y ≠ 0 := by
    intro x y h
    rw [Res.bind_eq_ok] at h
    obtain ⟨x', hx', h⟩ := h
    rw [Res.bind_eq_ok] at h
    obtain ⟨y', hy', h⟩ := h
    obtain ⟨ex, hx0⟩ := mapZero_ok hx'
    obtain ⟨ey, hy0⟩ := mapZero_ok hy'
    rw [← Res.ok.inj h]
    exact ⟨ex, ey, hx0, hy0⟩
  unfold swapWithoutFees at h
  cases dir with
  | BtoA =>
    simp only [] at h ⊢
    rw [Res.bind_eq_ok] at h
    obtain ⟨d, hd, h⟩ := h
    have ed := (cmul_eq_ok.1 hd).2
    rw [Res.ok_bind] at h
    obtain ⟨e1, e2, h1, h2⟩ := fin h
    refine ⟨by omega, by omega, by omega, ?_, e1⟩
    rw [e1, e2, ed, Nat.mul_comm]
  | AtoB =>
    simp only [] at h ⊢
    rw [Res.bind_eq_ok] at h
    obtain ⟨d, hd, h⟩ := h
    obtain ⟨hp, ed⟩ := cdiv_eq_ok.1 hd
    rw [Res.bind_eq_ok] at h
    obtain ⟨rem, hrem, h⟩ := h
    have er := (crem_eq_ok.1 hrem).2
    have hdm : p.toNat * (s / p.toNat) + s % p.toNat = s := Nat.div_add_mod s p.toNat
    rw [← ed, ← er] at hdm
    split at h
    · rw [Res.bind_eq_ok] at h
      obtain ⟨s', hs', h⟩ := h
      have es := (csub_eq_ok.1 hs').2
      rw [Res.ok_bind] at h
      obtain ⟨e1, e2, h1, h2⟩ := fin h
      rw [e1, e2]
      simp only [] at h1 h2 ⊢
      exact ⟨by omega, h1, h2, by omega, ed⟩
    · rw [Res.ok_bind] at h
      obtain ⟨e1, e2, h1, h2⟩ := fin h
      rw [e1, e2]
      simp only [] at h1 h2 ⊢
      exact ⟨by omega, h1, h2, by omega, ed⟩

theorem trading_floor {e : SplEnv} {p : UInt64} {s A B S m : Nat} {dir : TradeDirection}
    (h : tradingTokensToPoolTokens e p s A B S dir .Floor = .ok m) :
    m = S * Spec.worthOf p.toNat dir s / Spec.worth p.toNat A B ∧ Spec.worth p.toNat A B ≠ 0 := by
  have key : ∀ g : Nat, (do
      let tb ← cmul U256 B p.toNat
      let total ← cadd U256 tb A
      let m ← cmul U256 S g
      let q ← cdiv m total
      asUint U128 q) = .ok m → m = S * g / Spec.worth p.toNat A B ∧ Spec.worth p.toNat A B ≠ 0 := by
    intro g h
    rw [Res.bind_eq_ok] at h
    obtain ⟨tb, htb, h⟩ := h
    rw [Res.bind_eq_ok] at h
    obtain ⟨tot, htot, h⟩ := h
    rw [Res.bind_eq_ok] at h
    obtain ⟨mm, hmm, h⟩ := h
    rw [Res.bind_eq_ok] at h
    obtain ⟨q, hq, h⟩ := h
    have e1 := (cmul_eq_ok.1 htb).2
    have e2 := (cadd_eq_ok.1 htot).2
    have e3 := (cmul_eq_ok.1 hmm).2
    obtain ⟨hne, e4⟩ := cdiv_eq_ok.1 hq
    have e5 := (asUint_eq_ok.1 h).2
    have et : tot = Spec.worth p.toNat A B := by
      rw [e2, e1]; unfold Spec.worth; rw [Nat.add_comm, Nat.mul_comm]
    rw [← et]
    exact ⟨by rw [e5, e4, e3], hne⟩
  unfold tradingTokensToPoolTokens at h
  cases dir with
  | AtoB =>
    simp only [] at h
    rw [Res.ok_bind] at h
    exact key _ h
  | BtoA =>
    simp only [] at h
    rw [Res.bind_eq_ok] at h
    obtain ⟨g, hg, h⟩ := h
    have eg := (cmul_eq_ok.1 hg).2
    have := key _ h
    rw [eg, Nat.mul_comm s] at this
    exact this

theorem trading_ceil {e : SplEnv} {p : UInt64} {s A B S m : Nat} {dir : TradeDirection}
    (h : tradingTokensToPoolTokens e p s A B S dir .Ceiling = .ok m) :
    ∃ d, Spl.ceilDiv e.ceilZeroHalf U256 (S * Spec.worthOf p.toNat dir s)
      (Spec.worth p.toNat A B) = .ok (m, d) := by
  have key : ∀ g : Nat, (do
      let tb ← cmul U256 B p.toNat
      let total ← cadd U256 tb A
      let m ← cmul U256 S g
      let q ← Spl.ceilDiv e.ceilZeroHalf U256 m total
      asUint U128 q.1) = .ok m → ∃ d, Spl.ceilDiv e.ceilZeroHalf U256 (S * g)
        (Spec.worth p.toNat A B) = .ok (m, d) := by
    intro g h
    rw [Res.bind_eq_ok] at h
    obtain ⟨tb, htb, h⟩ := h
    rw [Res.bind_eq_ok] at h
    obtain ⟨tot, htot, h⟩ := h
    rw [Res.bind_eq_ok] at h
    obtain ⟨mm, hmm, h⟩ := h
    rw [Res.bind_eq_ok] at h
    obtain ⟨q, hq, h⟩ := h
    have e1 := (cmul_eq_ok.1 htb).2
    have e2 := (cadd_eq_ok.1 htot).2
    have e3 := (cmul_eq_ok.1 hmm).2
    have e5 := (asUint_eq_ok.1 h).2
    have et : tot = Spec.worth p.toNat A B := by
      rw [e2, e1]; unfold Spec.worth; rw [Nat.add_comm, Nat.mul_comm]
    refine ⟨q.2, ?_⟩
    rw [← et, ← e3, hq, e5]
  unfold tradingTokensToPoolTokens at h
  cases dir with
  | AtoB =>
    simp only [] at h
    rw [Res.ok_bind] at h
    exact key _ h
  | BtoA =>
    simp only [] at h
    rw [Res.bind_eq_ok] at h
    obtain ⟨g, hg, h⟩ := h
    have eg := (cmul_eq_ok.1 hg).2
    have := key _ h
    rw [eg, Nat.mul_comm s] at this
    exact this

theorem total_eq {p : UInt64} {A B nv t : Nat} (h : normalizedValue p A B = .ok nv)
    (ht : Spl.toImprecise nv = .ok t) : 2 * t ≤ Spec.worth p.toNat A B ∧
      Spec.worth p.toNat A B ≤ 2 * t + 1 := by
  unfold normalizedValue at h
  rw [Res.bind_eq_ok] at h
  obtain ⟨bv, hbv, h⟩ := h
  obtain ⟨hbl, ebv⟩ := cmul_eq_ok.1 hbv
  have hv : ∃ v, v = Spec.worth p.toNat A B / 2 ∧ Spl.new v = .ok nv := by
    split at h
    · -- dead branch: `bv < 2^128`
      rename_i hgt
      exfalso
      rw [← ebv] at hbl
      rw [U128_val] at hbl hgt
      rw [U64_val] at hgt
      omega
    · rw [Res.bind_eq_ok] at h
      obtain ⟨s, hs, h⟩ := h
      rw [Res.bind_eq_ok] at h
      obtain ⟨v, hv, h⟩ := h
      have es := (cadd_eq_ok.1 hs).2
      have ev := (cdiv_eq_ok.1 hv).2
      refine ⟨v, ?_, h⟩
      rw [ev, es, ebv]; unfold Spec.worth; rw [Nat.mul_comm B]
  obtain ⟨v, ev, hv⟩ := hv
  have en := (cmul_eq_ok.1 hv).2
  unfold Spl.toImprecise at ht
  rw [Res.bind_eq_ok] at ht
  obtain ⟨s, hs, ht⟩ := ht
  rw [Res.bind_eq_ok] at ht
  obtain ⟨q, hq, ht⟩ := ht
  have e1 := (cadd_eq_ok.1 hs).2
  have e2 := (cdiv_eq_ok.1 hq).2
  have e3 := (asUint_eq_ok.1 ht).2
  have e4 : t = v := by
    rw [e3, e2, e1, en]
    unfold Spl.ONE
    omega
  omega

theorem toTrading_floor {e : SplEnv} {p : UInt64} {pt S A B : Nat} {r : TradingTokenResult}
    (h : poolTokensToTradingTokens e p pt S A B .Floor = .ok r) :
    ∃ t, 2 * t ≤ Spec.worth p.toNat A B ∧ Spec.worth p.toNat A B ≤ 2 * t + 1 ∧
      0 < S ∧ r.token_a_amount * S ≤ pt * t ∧ p.toNat * r.token_b_amount * S ≤ pt * t := by
  unfold poolTokensToTradingTokens at h
  simp only [] at h
  rw [Res.bind_eq_ok] at h
  obtain ⟨nv, hnv, h⟩ := h
  rw [Res.bind_eq_ok] at h
  obtain ⟨t, ht, h⟩ := h
  rw [Res.bind_eq_ok] at h
  obtain ⟨m, hm, h⟩ := h
  rw [Res.bind_eq_ok] at h
  obtain ⟨a, ha, h⟩ := h
  rw [Res.bind_eq_ok] at h
  obtain ⟨b1, hb1, h⟩ := h
  rw [Res.bind_eq_ok] at h
  obtain ⟨b, hb, h⟩ := h
  obtain ⟨t1, t2⟩ := total_eq hnv ht
  have em := (cmul_eq_ok.1 hm).2
  obtain ⟨hS, ea⟩ := cdiv_eq_ok.1 ha
  have eb1 := (cdiv_eq_ok.1 hb1).2
  have eb := (cdiv_eq_ok.1 hb).2
  rw [← Res.ok.inj h]
  refine ⟨t, t1, t2, Nat.pos_of_ne_zero hS, ?_, ?_⟩
  · rw [← em, ea]; exact Nat.div_mul_le_self _ _
  · rw [← em]
    calc p.toNat * b * S = b * S * p.toNat := by ring
      _ ≤ b1 * p.toNat := by
        apply Nat.mul_le_mul_right
        rw [eb]; exact Nat.div_mul_le_self _ _
      _ ≤ m := by rw [eb1]; exact Nat.div_mul_le_self _ _

theorem toTrading_ceil {e : SplEnv} {p : UInt64} {pt S A B : Nat} {r : TradingTokenResult}
    (h : poolTokensToTradingTokens e p pt S A B .Ceiling = .ok r)
    (ha0 : 0 < r.token_a_amount) (hb0 : 0 < r.token_b_amount) :
    ∃ t, 2 * t ≤ Spec.worth p.toNat A B ∧ Spec.worth p.toNat A B ≤ 2 * t + 1 ∧
      0 < S ∧ pt * t ≤ r.token_a_amount * S ∧ pt * t ≤ p.toNat * r.token_b_amount * S := by
  unfold poolTokensToTradingTokens at h
  simp only [] at h
  rw [Res.bind_eq_ok] at h
  obtain ⟨nv, hnv, h⟩ := h
  rw [Res.bind_eq_ok] at h
  obtain ⟨t, ht, h⟩ := h
  rw [Res.bind_eq_ok] at h
  obtain ⟨m, hm, h⟩ := h
  rw [Res.bind_eq_ok] at h
  obtain ⟨a, ha, h⟩ := h
  rw [Res.bind_eq_ok] at h
  obtain ⟨b1, hb1, h⟩ := h
  rw [Res.bind_eq_ok] at h
  obtain ⟨b, hb, h⟩ := h
  obtain ⟨t1, t2⟩ := total_eq hnv ht
  have em := (cmul_eq_ok.1 hm).2
  have e := Res.ok.inj h
  rw [← e] at ha0 hb0 ⊢
  simp only [] at ha0 hb0 ⊢
  have hS := (ceilDiv_ok ha).1
  have h1 : m ≤ a.1 * S := ceilDiv_ge (q := a.1) (d := a.2) ha ha0
  have h2 : b1.1 ≤ b.1 * S := ceilDiv_ge (q := b.1) (d := b.2) hb hb0
  have hb1pos : 0 < b1.1 := by
    obtain ⟨_, hc⟩ := ceilDiv_ok (q := b.1) (d := b.2) hb
    rcases hc with ⟨_, _, _, _⟩ | ⟨h3, _⟩
    · -- quotient zero branch: `b ≤ 1`, so `b = 1`, which needs `S ≤ 2·b1`
      by_contra hz
      have hz' : b1.1 = 0 := by omega
      rw [hz'] at hb
      unfold Spl.ceilDiv at hb
      rw [Res.bind_eq_ok] at hb
      obtain ⟨q, hq, hb⟩ := hb
      have eq := (cdiv_eq_ok.1 hq).2
      rw [Nat.zero_div] at eq
      rw [if_pos eq] at hb
      split at hb
      · rw [Res.bind_eq_ok] at hb
        obtain ⟨a2, ha2, hb⟩ := hb
        have := (cmul_eq_ok.1 ha2).2
        rw [if_neg (by omega)] at hb
        rw [← Res.ok.inj hb] at hb0
        simp at hb0
      · cases hb
    · omega
  have h3 : m ≤ b1.1 * p.toNat := ceilDiv_ge (q := b1.1) (d := b1.2) hb1 hb1pos
  refine ⟨t, t1, t2, hS, by rw [← em]; exact h1, ?_⟩
  rw [← em]
  calc m ≤ b1.1 * p.toNat := h3
    _ ≤ b.1 * S * p.toNat := Nat.mul_le_mul_right _ h2
    _ = _ := by ring

end ConstantPrice

/-! ### Constant product -/

namespace ConstantProduct

theorem swap_ok {e : SplEnv} {s x y : Nat} {r : SwapWithoutFeesResult}
    (h : swap e s x y = .ok r) :
    r.source_amount_swapped ≤ s ∧ r.destination_amount_swapped ≤ y ∧
      r.destination_amount_swapped ≠ 0 ∧
      (0 < x → x * y ≤ (x + r.source_amount_swapped) * (y - r.destination_amount_swapped)) := by
  unfold swap at h
  rw [Res.bind_eq_ok] at h
  obtain ⟨inv, hinv, h⟩ := h
  rw [Res.bind_eq_ok] at h
  obtain ⟨ns, hns, h⟩ := h
  rw [Res.bind_eq_ok] at h
  obtain ⟨⟨q, dv⟩, hq, h⟩ := h
  rw [Res.bind_eq_ok] at h
  obtain ⟨sw, hsw, h⟩ := h
  rw [Res.bind_eq_ok] at h
  obtain ⟨d0, hd0, h⟩ := h
  rw [Res.bind_eq_ok] at h
  obtain ⟨d, hd, h⟩ := h
  have e1 := (cmul_eq_ok.1 hinv).2
  have e2 := (cadd_eq_ok.1 hns).2
  obtain ⟨h3, e3⟩ := csub_eq_ok.1 hsw
  obtain ⟨h4, e4⟩ := csub_eq_ok.1 hd0
  obtain ⟨e5, hd0'⟩ := mapZero_ok hd
  rw [← Res.ok.inj h]
  simp only [] at h3 h4 e3 e4 ⊢
  obtain ⟨hpos, hc⟩ := ceilDiv_ok hq
  rcases hc with ⟨hlt, hdv, _⟩ | ⟨_, _, _, _, h5, h6⟩
  · refine ⟨by omega, by omega, by omega, fun hx => by omega⟩
  · refine ⟨by omega, by omega, by omega, fun _ => ?_⟩
    have e6 : x + sw = dv := by omega
    have e7 : y - d = q := by omega
    rw [e6, e7, ← e1, Nat.mul_comm]
    exact h5

theorem toTrading_ok {pt S A B : Nat} {rd : RoundDirection} {r : TradingTokenResult}
    (h : poolTokensToTradingTokens pt S A B rd = .ok r) :
    0 < S ∧ (match rd with
      | .Floor => r.token_a_amount * S ≤ pt * A ∧ r.token_b_amount * S ≤ pt * B
      | .Ceiling => (0 < r.token_a_amount → pt * A ≤ r.token_a_amount * S) ∧
          (0 < r.token_b_amount → pt * B ≤ r.token_b_amount * S)) := by
  unfold poolTokensToTradingTokens at h
  rw [Res.bind_eq_ok] at h
  obtain ⟨ma, hma, h⟩ := h
  rw [Res.bind_eq_ok] at h
  obtain ⟨a, ha, h⟩ := h
  rw [Res.bind_eq_ok] at h
  obtain ⟨mb, hmb, h⟩ := h
  rw [Res.bind_eq_ok] at h
  obtain ⟨b, hb, h⟩ := h
  have ema := (cmul_eq_ok.1 hma).2
  have emb := (cmul_eq_ok.1 hmb).2
  obtain ⟨hS, ea⟩ := cdiv_eq_ok.1 ha
  have eb := (cdiv_eq_ok.1 hb).2
  have hSp := Nat.pos_of_ne_zero hS
  have ceil : ∀ m q : Nat, q = m / S → 0 < (if 0 < m % S ∧ 0 < q then q + 1 else q) →
      m ≤ (if 0 < m % S ∧ 0 < q then q + 1 else q) * S := by
    intro m q hq h0
    have hdm : S * q + m % S = m := by rw [hq]; exact Nat.div_add_mod m S
    have hlt : m % S < S := Nat.mod_lt _ hSp
    rw [Nat.mul_comm] at hdm
    split at h0
    · rename_i hh; rw [if_pos hh, Nat.add_mul, Nat.one_mul]; omega
    · rename_i hh
      rw [if_neg hh]
      have : m % S = 0 := by omega
      omega
  refine ⟨hSp, ?_⟩
  cases rd with
  | Floor =>
    simp only [] at h ⊢
    rw [← Res.ok.inj h]
    simp only []
    rw [← ema, ← emb, ea, eb]
    exact ⟨Nat.div_mul_le_self _ _, Nat.div_mul_le_self _ _⟩
  | Ceiling =>
    simp only [] at h ⊢
    rw [Res.bind_eq_ok] at h
    obtain ⟨ra, hra, h⟩ := h
    rw [Res.bind_eq_ok] at h
    obtain ⟨rb, hrb, h⟩ := h
    have era := (crem_eq_ok.1 hra).2
    have erb := (crem_eq_ok.1 hrb).2
    rw [← Res.ok.inj h]
    simp only []
    rw [← ema, ← emb, era, erb]
    exact ⟨ceil ma a ea, ceil mb b eb⟩

end ConstantProduct

/-! ### The wrapper with fees -/

namespace Curve

/-- Everything a successful fee-charging swap says. -/
theorem swap_inv {e : SplEnv} {c : Curve} {s x y : Nat} {dir : TradeDirection} {f : Fees}
    {r : SwapResult} (h : c.swap e s x y dir f = .ok r) :
    ∃ q, f.tradingFee s = .ok r.trade_fee ∧ f.ownerTradingFee s = .ok r.owner_fee ∧
      r.trade_fee + r.owner_fee ≤ s ∧
      c.swapWithoutFees e (s - (r.trade_fee + r.owner_fee)) x y dir = .ok q ∧
      r.source_amount_swapped = q.source_amount_swapped + (r.trade_fee + r.owner_fee) ∧
      r.destination_amount_swapped = q.destination_amount_swapped ∧
      r.new_swap_source_amount = x + r.source_amount_swapped ∧
      r.destination_amount_swapped ≤ y ∧
      r.new_swap_destination_amount = y - r.destination_amount_swapped := by
  unfold Curve.swap at h
  rw [Res.bind_eq_ok] at h
  obtain ⟨tf, htf, h⟩ := h
  rw [Res.bind_eq_ok] at h
  obtain ⟨of, hof, h⟩ := h
  rw [Res.bind_eq_ok] at h
  obtain ⟨tot, htot, h⟩ := h
  rw [Res.bind_eq_ok] at h
  obtain ⟨lf, hlf, h⟩ := h
  rw [Res.bind_eq_ok] at h
  obtain ⟨q, hq, h⟩ := h
  rw [Res.bind_eq_ok] at h
  obtain ⟨sw, hsw, h⟩ := h
  rw [Res.bind_eq_ok] at h
  obtain ⟨ns, hns, h⟩ := h
  rw [Res.bind_eq_ok] at h
  obtain ⟨nd, hnd, h⟩ := h
  have e1 := (cadd_eq_ok.1 htot).2
  obtain ⟨h2, e2⟩ := csub_eq_ok.1 hlf
  have e3 := (cadd_eq_ok.1 hsw).2
  have e4 := (cadd_eq_ok.1 hns).2
  obtain ⟨h5, e5⟩ := csub_eq_ok.1 hnd
  rw [← Res.ok.inj h]
  simp only []
  refine ⟨q, htf, hof, by omega, ?_, by omega, rfl, by omega, h5, e5⟩
  rw [← hq, e2, e1]

/-- Every curve takes at most what is offered. -/
theorem source_le {e : SplEnv} {c : Curve} {s x y : Nat} {dir : TradeDirection}
    {q : SwapWithoutFeesResult} (h : c.swapWithoutFees e s x y dir = .ok q) :
    q.source_amount_swapped ≤ s := by
  cases c with
  | constantProduct => exact (ConstantProduct.swap_ok h).1
  | constantPrice p => exact (ConstantPrice.swap_ok h).1
  | stable amp =>
    unfold Curve.swapWithoutFees at h
    simp only [] at h
    unfold Stable.swapWithoutFees at h
    rw [Res.bind_eq_ok] at h
    obtain ⟨_, _, h⟩ := h
    rw [Res.bind_eq_ok] at h
    obtain ⟨_, _, h⟩ := h
    rw [Res.bind_eq_ok] at h
    obtain ⟨_, _, h⟩ := h
    rw [Res.bind_eq_ok] at h
    obtain ⟨_, _, h⟩ := h
    rw [Res.bind_eq_ok] at h
    obtain ⟨_, _, h⟩ := h
    rw [← Res.ok.inj h]
  | offset o =>
    unfold Curve.swapWithoutFees at h
    simp only [] at h
    unfold Offset.swapWithoutFees at h
    cases dir with
    | AtoB =>
      simp only [] at h
      rw [Res.ok_bind, Res.bind_eq_ok] at h
      obtain ⟨_, _, h⟩ := h
      exact (ConstantProduct.swap_ok h).1
    | BtoA =>
      simp only [] at h
      rw [Res.bind_eq_ok] at h
      obtain ⟨_, _, h⟩ := h
      rw [Res.ok_bind] at h
      exact (ConstantProduct.swap_ok h).1
  | linear l =>
    unfold Curve.swapWithoutFees at h
    simp only [] at h
    cases dir with
    | AtoB =>
      obtain ⟨_, _, hc⟩ := Linear.swapAToB_ok (Linear.swapWithoutFees_buy h).1
      rcases hc with ⟨_, hx, _⟩ | ⟨hx, _⟩
      · exact hx
      · exact le_of_eq hx
    | BtoA =>
      obtain ⟨b0, _, hc⟩ := Linear.swapBToA_ok (Linear.swapWithoutFees_sell h).1
      rcases hc with ⟨hlt, _, hx⟩ | ⟨_, hx, _⟩
      · rw [hx]
        have h1 : Dfs.roundingCorrection < Dfs.ONE := by decide
        have : (b0 + Dfs.roundingCorrection) / Dfs.ONE < s + 1 := by
          rw [Nat.div_lt_iff_lt_mul Dfs.ONE_pos, Nat.add_mul, Nat.one_mul]
          exact Nat.add_lt_add hlt h1
        exact Nat.lt_succ_iff.1 this
      · exact le_of_eq hx

end Curve
end Verif
