import Verif.Props.Linear
import Verif.Lemmas.LinearAcc

/-
C83: sending tokens to a linear pool before trading with it.
-/

namespace Verif
namespace Props

open Spec Linear

/-- C83.  A seller who first sends `g` token A (and any token B) to the vaults gets at most `g` more for the sale, and
gives up no fewer token B. -/
theorem C83_sale (c : LinearPriceCurve) (s g A B B' : Nat) (r r' : SwapWithoutFeesResult)
    (hA : A + g < 2 ^ 64)
    (h : Linear.swapWithoutFees c s B A .BtoA = .ok r)
    (h' : Linear.swapWithoutFees c s B' (A + g) .BtoA = .ok r') :
    r'.destination_amount_swapped ≤ g + r.destination_amount_swapped ∧
      r.source_amount_swapped ≤ r'.source_amount_swapped := by
  obtain ⟨b0, hb0, hc⟩ := swapBToA_ok (swapWithoutFees_sell h).1
  obtain ⟨b0', hb0', hc'⟩ := swapBToA_ok (swapWithoutFees_sell h').1
  have hz := nz_of_bValue hb0
  have hA' := lt64 hA
  have hbb := bValue_mono hz (show A ≤ A + g by omega) (by omega) hb0 hb0'
  have hop := Dfs.ONE_pos
  have hVM : ∀ v, v ≤ (A + g) * Dfs.ONE → v < VMAX := by
    intro v hv
    refine lt_of_le_of_lt hv ?_
    rw [Dfs.ONE_val, VMAX_val]; omega
  have hmul : (A + g) * Dfs.ONE = A * Dfs.ONE + g * Dfs.ONE := Nat.add_mul _ _ _
  rcases hc' with ⟨hlt', hy', hx'⟩ | ⟨hle', hx', v', hv', hvA', hy'⟩
  · rcases hc with ⟨hlt, hy, hx⟩ | ⟨hle, _⟩
    · refine ⟨by omega, ?_⟩
      rw [hx, hx']
      exact Nat.div_le_div_right (by omega)
    · omega
  · rcases hc with ⟨hlt, hy, hx⟩ | ⟨hle, hx, v, hv, hvA, hy⟩
    · refine ⟨?_, ?_⟩
      · rw [hy, hy', Nat.add_comm g A]
        exact le_trans (Nat.div_le_div_right (Nat.sub_le _ _)) (le_of_eq (Nat.mul_div_cancel _ hop))
      · rw [hx, hx']
        have : b0 + Dfs.roundingCorrection < (s + 1) * Dfs.ONE := by
          have : Dfs.roundingCorrection ≤ Dfs.ONE := by decide
          rw [Nat.add_mul]; omega
        have := (Nat.div_lt_iff_lt_mul hop).2 this
        omega
    · refine ⟨?_, by omega⟩
      have e1 := (amt_eq_ok hz.sn hv (hVM v (by omega))).1
      have e2 := (amt_eq_ok hz.sn hv' (hVM v' hvA')).1
      have hvv : v ≤ v' := by
        rw [e1, e2]
        apply amtF_mono
        gcongr
      rw [hy, hy', Nat.add_comm g, ← Nat.add_mul_div_right (A * Dfs.ONE - v) g hop]
      exact Nat.div_le_div_right (by omega)

/-- C83.  If the sale is refused without the gift, the gift does not come back with more, unless all the
token A in the vault stands for less than half a token B. -/
theorem C83_refused (c : LinearPriceCurve) (hv : isCurveParamValid c = .ok ()) (s g A B B' : Nat)
    (r' : SwapWithoutFeesResult) (hA : A + g < 2 ^ 64) (hs : s < 2 ^ 64)
    (h : Linear.swapWithoutFees c s B A .BtoA = .none)
    (h' : Linear.swapWithoutFees c s B' (A + g) .BtoA = .ok r') :
    r'.destination_amount_swapped ≤ g ∨
      ∃ b, bValue c (A * 10 ^ 18) true = .ok b ∧ 2 * b < 10 ^ 18 := by
  have hz := nz_of_valid hv
  have hA' := lt64 hA
  have hs' := lt64 hs
  have hop := Dfs.ONE_pos
  obtain ⟨b0', hb0', hc'⟩ := swapBToA_ok (swapWithoutFees_sell h').1
  obtain ⟨hnn, _⟩ := C44_up_iff c hv A (by omega)
  rcases hb0 : bValue c (A * Dfs.ONE) true with b0 | _ | _
  · have hbb := bValue_mono hz (show A ≤ A + g by omega) (by omega) hb0 hb0'
    obtain ⟨k1, k2⟩ := swapBToA_of (show A < 18446744073709551616 by omega) hs' hv hb0
    by_cases hg : r'.destination_amount_swapped ≤ g
    · exact Or.inl hg
    have hs0 : s ≠ 0 := by
      rintro rfl
      rcases hc' with ⟨hlt', _⟩ | ⟨_, hx', _⟩
      · omega
      · exact absurd hx' (swapWithoutFees_sell h').2.1
    right
    refine ⟨b0, hb0, ?_⟩
    by_contra hb
    have hb : Dfs.ONE ≤ 2 * b0 := Nat.le_of_not_lt hb
    rcases Nat.lt_or_ge b0 (s * Dfs.ONE) with hlt | hge
    · have hx : (b0 + Dfs.roundingCorrection) / Dfs.ONE ≠ 0 := by
        have hrc : 2 * Dfs.roundingCorrection = Dfs.ONE := by decide
        have : 1 ≤ (b0 + Dfs.roundingCorrection) / Dfs.ONE := by
          rw [Nat.le_div_iff_mul_le hop]; omega
        omega
      have hyA : r'.destination_amount_swapped ≤ A + g := by
        rcases hc' with ⟨_, hy', _⟩ | ⟨_, _, v', _, _, hy'⟩
        · omega
        · rw [hy']
          exact le_trans (Nat.div_le_div_right (Nat.sub_le _ _))
            (le_of_eq (Nat.mul_div_cancel _ hop))
      rw [swapWithoutFees_of_sell (k1 hlt) hx (by omega)] at h
      cases h
    · rcases hc' with ⟨hlt', _⟩ | ⟨_, _, v', hv', hvA', hy'⟩
      · omega
      have hVM : v' < VMAX := by
        refine lt_of_le_of_lt hvA' ?_
        rw [Dfs.ONE_val, VMAX_val]; omega
      have e2 := (amt_eq_ok hz.sn hv' hVM).1
      have hvv : amtF c ((b0 - s * Dfs.ONE + (Dfs.ONE - 1)) / Dfs.ONE * Dfs.ONE) ≤ v' := by
        rw [e2]
        apply amtF_mono
        gcongr
      have hg' : (g + 1) * Dfs.ONE ≤ (A + g) * Dfs.ONE - v' := by
        rw [← Nat.le_div_iff_mul_le hop, ← hy']; omega
      rw [Nat.add_mul, Nat.add_mul] at hg'
      have hy0 : (A * Dfs.ONE - amtF c ((b0 - s * Dfs.ONE + (Dfs.ONE - 1)) / Dfs.ONE * Dfs.ONE)) /
          Dfs.ONE ≠ 0 := by
        have : 1 ≤ (A * Dfs.ONE -
            amtF c ((b0 - s * Dfs.ONE + (Dfs.ONE - 1)) / Dfs.ONE * Dfs.ONE)) / Dfs.ONE := by
          rw [Nat.le_div_iff_mul_le hop]; omega
        omega
      rw [swapWithoutFees_of_sell (k2 hge (by omega)) hs0 hy0] at h
      cases h
  · exact absurd hb0 hnn
  · exfalso
    unfold Linear.swapWithoutFees swapBToA at h
    simp only [] at h
    rw [Dfs.new_ok (by rw [Dfs.ONE_val, U256_val]; omega), Res.ok_bind, hb0] at h
    cases h

/-- C83.  A buyer does at least as well by offering the gift along with the payment: the combined offer
brings at least as many token B and takes no more token A. -/
theorem C83_purchase (c : LinearPriceCurve) (s g A B : Nat)
    (r r' : SwapWithoutFeesResult) (hA : A + g < 2 ^ 64)
    (h : Linear.swapWithoutFees c (s + g) A B .AtoB = .ok r)
    (h' : Linear.swapWithoutFees c s (A + g) B .AtoB = .ok r')
    (hn : r'.destination_amount_swapped < B) :
    r'.destination_amount_swapped ≤ r.destination_amount_swapped ∧
      r.source_amount_swapped ≤ g + r'.source_amount_swapped := by
  obtain ⟨b0, hb0, hc⟩ := swapAToB_inv (swapWithoutFees_buy h).1
  obtain ⟨b0', hb0', hc'⟩ := swapAToB_inv (swapWithoutFees_buy h').1
  have hz := nz_of_bValue hb0
  have hbb := bValue_mono hz (show A ≤ A + g by omega) (by omega) hb0 hb0'
  rcases hc' with hm | ⟨hm, hx, b1, hb1, hle, hy⟩
  · have := (maximumARemaining_ok hm).1
    omega
  rcases hc with hm' | ⟨_, hx2, b2, hb2, _, hy2⟩
  · obtain ⟨e1, e2, _⟩ := maximumARemaining_ok hm'
    omega
  · rw [show A + g + s = A + (s + g) by omega, hb2] at hb1
    have e := Res.ok.inj hb1
    refine ⟨?_, by omega⟩
    rw [hy, hy2, ← e]
    exact Nat.div_le_div_right (by omega)

/-- C83.  The same when both buy the pool out: then both get the `B` token B there are, and the combined
offer is charged no more than gift and payment. -/
theorem C83_buyout (c : LinearPriceCurve) (s g A B : Nat)
    (r r' : SwapWithoutFeesResult) (hA : A + g < 2 ^ 64) (hs : s + g < 2 ^ 64)
    (h : Linear.swapWithoutFees c (s + g) A B .AtoB = .ok r)
    (h' : Linear.swapWithoutFees c s (A + g) B .AtoB = .ok r')
    (hx : r.source_amount_swapped < s + g) (hx' : r'.source_amount_swapped < s) :
    r.destination_amount_swapped = B ∧ r'.destination_amount_swapped = B ∧
      r.source_amount_swapped ≤ g + r'.source_amount_swapped := by
  have hA' := lt64 hA
  have hs' := lt64 hs
  obtain ⟨b0, hb0, hc⟩ := swapAToB_ok (swapWithoutFees_buy h).1
  obtain ⟨b0', hb0', hc'⟩ := swapAToB_ok (swapWithoutFees_buy h').1
  have hz := nz_of_bValue hb0
  have hbb := bValue_mono hz (show A ≤ A + g by omega) (by omega) hb0 hb0'
  have hop := Dfs.ONE_pos
  have hrc : 2 * Dfs.roundingCorrection = Dfs.ONE := by decide
  rcases hc with ⟨hy, hxs, v, hv, hvA, hxe⟩ | ⟨hxs, _⟩
  swap
  · omega
  rcases hc' with ⟨hy', hxs', v', hv', hvA', hxe'⟩ | ⟨hxs', _⟩
  swap
  · omega
  refine ⟨hy, hy', ?_⟩
  have bound : ∀ u a x : Nat, x = (u - a + Dfs.roundingCorrection) / Dfs.ONE → x < 18446744073709551616 →
      a < 18446744073709551616 * Dfs.ONE → u < VMAX := by
    intro u a x hx hlt ha
    have h1 := Nat.lt_mul_div_succ (u - a + Dfs.roundingCorrection) hop
    rw [← hx] at h1
    have h2 : Dfs.ONE * (x + 1) ≤ Dfs.ONE * 18446744073709551616 := Nat.mul_le_mul_left _ (by omega)
    rw [VMAX_val]
    rw [Dfs.ONE_val] at *
    omega
  have hAO : ∀ a, a < 18446744073709551616 → a * Dfs.ONE < 18446744073709551616 * Dfs.ONE :=
    fun a ha => Nat.mul_lt_mul_of_pos_right ha hop
  have e1 := (amt_eq_ok hz.sn hv (bound _ _ _ hxe (by omega) (hAO _ (by omega)))).1
  have e2 := (amt_eq_ok hz.sn hv' (bound _ _ _ hxe' (by omega) (hAO _ hA'))).1
  have hvv : v ≤ v' := by
    rw [e1, e2]
    exact amtF_mono c (by omega)
  rw [hxe, hxe', Nat.add_comm g, ← Nat.add_mul_div_right _ g hop]
  refine Nat.div_le_div_right ?_
  rw [Nat.add_mul] at hvA' ⊢
  omega

/-- C83.  Token B sent to the vault (which do not matter to sales, `C83_sale` with `g = 0`): a purchase that
does not empty it brings at most those `u` more than it would have without, and takes no less token A. -/
theorem C83_purchase_other (c : LinearPriceCurve) (s A B u : Nat) (r r' : SwapWithoutFeesResult)
    (h : Linear.swapWithoutFees c s A B .AtoB = .ok r)
    (h' : Linear.swapWithoutFees c s A (B + u) .AtoB = .ok r')
    (hn : r'.destination_amount_swapped < B + u) :
    r'.destination_amount_swapped ≤ r.destination_amount_swapped + u ∧
      r.source_amount_swapped ≤ r'.source_amount_swapped := by
  obtain ⟨b0, hb0, hc⟩ := swapAToB_ok (swapWithoutFees_buy h).1
  obtain ⟨b0', hb0', hc'⟩ := swapAToB_ok (swapWithoutFees_buy h').1
  rw [hb0] at hb0'
  rw [← Res.ok.inj hb0'] at hc'
  rcases hc' with ⟨hy', _⟩ | ⟨hx', b1', hb1', _, hy'⟩
  · omega
  rcases hc with ⟨hy, hx, _⟩ | ⟨hx, b1, hb1, _, hy⟩
  · omega
  · rw [hb1] at hb1'
    rw [← Res.ok.inj hb1', ← hy] at hy'
    omega

/-- The exception of `C83_refused` occurs: one token A stands for less than half a token B and cannot be
sold for, with a gift of one more both are paid for one token B. -/
theorem C83_dust : isCurveParamValid sampleCurve = .ok () ∧
    Linear.swapWithoutFees sampleCurve 1 90 1 .BtoA = .none ∧
    Linear.swapWithoutFees sampleCurve 1 90 (1 + 1) .BtoA = .ok ⟨1, 2⟩ := by decide +kernel

/-- Sales of 3 token B after a gift of 40 token A; -/
example : Linear.swapWithoutFees sampleCurve 3 50 100 .BtoA = .ok ⟨3, 46⟩ ∧
    Linear.swapWithoutFees sampleCurve 3 50 (100 + 40) .BtoA = .ok ⟨3, 52⟩ := by decide +kernel

/-- purchases of the same kind, of a part and of all token B; -/
example : Linear.swapWithoutFees sampleCurve (30 + 70) 20 90 .AtoB = .ok ⟨100, 6⟩ ∧
    Linear.swapWithoutFees sampleCurve 70 (20 + 30) 90 .AtoB = .ok ⟨70, 3⟩ := by decide +kernel

example : Linear.swapWithoutFees sampleCurve (20000 + 30) 20 90 .AtoB = .ok ⟨8949, 90⟩ ∧
    Linear.swapWithoutFees sampleCurve 20000 (20 + 30) 90 .AtoB = .ok ⟨9401, 90⟩ := by decide +kernel

/-- a sale too small for its price, with and without a gift; -/
example : Linear.swapWithoutFees ⟨1, 100, 0, 1⟩ 1 50 10 .BtoA = .none ∧
    Linear.swapWithoutFees ⟨1, 100, 0, 1⟩ 1 50 (10 + 5000) .BtoA = .ok ⟨1, 10⟩ := by decide +kernel

/-- and a gift of token B to the buyer of all. -/
example : Linear.swapWithoutFees sampleCurve 1000 20 5 .AtoB = .ok ⟨72, 5⟩ ∧
    Linear.swapWithoutFees sampleCurve 1000 20 (5 + 90) .AtoB = .ok ⟨1000, 27⟩ := by decide +kernel

end Props
end Verif
