import Verif.Props.Reference
import Verif.Lemmas.Settle

/-
C95, where 32 rounds are enough.
-/

namespace Verif
namespace Props

open Stable Spec

/-- Balances of at least 100 units, neither of them more than a hundred million times the other: 32 rounds
bring the invariant to within `8 + 4x/d + d/2x + d/2y` units of the exact one. -/
theorem C95_settled_partial {L x y d : Nat} (hL : 2 ≤ L) (hx : 100 ≤ x) (hy : 100 ≤ y)
    (hx64 : x < 2 ^ 64) (hy64 : y < 2 ^ 64) (hxy : x ≤ 10 ^ 8 * y) (hyx : y ≤ 10 ^ 8 * x)
    (h : computeD L x y = .ok d) :
    (∀ D : ℝ, 0 ≤ D → StableAtLeast L x y D → D < d + 1) ∧
    StableAtLeast L x y (d - (8 + 4 * x / d + d / (2 * x) + d / (2 * y))) := by
  refine ⟨fun D hD hat => computeD_ok (by omega) (by omega) hD hat h, ?_⟩
  have := (computeD_close hL hx hy hx64 hy64 hxy hyx (C95_invariant_partial (by omega) h)).2.2
  simpa using this

/-- The balance left on the paying side is within one unit of the (larger) solution `Y` of its equation, for
amplifications up to 2^45 and an invariant of at most 2^46 times the other balance. -/
theorem C95_settled_destination_partial {L x D y : Nat} (hL : L ≤ 2 ^ 46) (hx : x < 2 ^ 65)
    (hD : D < 2 ^ 66) (hDx : D ≤ 2 ^ 46 * x) (b c : ℤ) (hb : b = (x : ℤ) + D / L - D)
    (hc : c = (D : ℤ) ^ 3 / (4 * x * L)) (h : computeNewDestination L x D = .ok y) :
    ∃ Y : ℝ, 0 ≤ Y ∧ 0 ≤ 2 * Y + b ∧ Y ^ 2 + b * Y = c ∧ Y - 1 < y ∧ y ≤ Y + 1 := by
  unfold computeNewDestination at h
  rw [Res.bind_eq_ok] at h
  obtain ⟨d3, h1, h⟩ := h
  rw [Res.bind_eq_ok] at h
  obtain ⟨x4, h2, h⟩ := h
  rw [Res.bind_eq_ok] at h
  obtain ⟨den, h3, h⟩ := h
  rw [Res.bind_eq_ok] at h
  obtain ⟨c', h4, h⟩ := h
  rw [Res.bind_eq_ok] at h
  obtain ⟨dl, h5, h⟩ := h
  rw [Res.bind_eq_ok] at h
  obtain ⟨b', h6, h⟩ := h
  rw [Res.bind_eq_ok] at h
  obtain ⟨y', h7, h⟩ := h
  have e1 := u8Power_three h1
  have e2 := u8Mul_four h2
  have e3 := (cmul_eq_ok.1 h3).2
  obtain ⟨e4, e5⟩ := cdiv_eq_ok.1 h4
  obtain ⟨e6, e7⟩ := cdiv_eq_ok.1 h5
  have e8 := (cadd_eq_ok.1 h6).2
  have e9 : y = y' := (tryUint_eq_ok.1 h).2
  have hc' : c = c' := by
    rw [hc, e5, e3, e2, e1]; push_cast
    rw [pow_succ, sq]
  have hb' : b = (b' : ℤ) - D := by rw [hb, e8, e7]; push_cast; rfl
  rw [e9, hc', hb']
  have hL0 : 0 < L := Nat.pos_of_ne_zero e6
  have hx0 : 0 < x := by
    rcases Nat.eq_zero_or_pos x with e | e
    · subst e; exact absurd (by rw [e3, e2]; simp) e4
    · exact e
  have hxR : (0 : ℝ) < x := by exact_mod_cast hx0
  have hLR : (1 : ℝ) ≤ L := by exact_mod_cast hL0
  have hL46R : (L : ℝ) ≤ 2 ^ 46 := by exact_mod_cast hL
  have hDR : (0 : ℝ) ≤ D := Nat.cast_nonneg D
  have hD66 : (D : ℝ) ≤ 2 ^ 66 := by exact_mod_cast hD.le
  have hx65 : (x : ℝ) ≤ 2 ^ 65 := by exact_mod_cast hx.le
  have hDxR : (D : ℝ) ≤ 2 ^ 46 * x := by exact_mod_cast hDx
  have hcR : (0 : ℝ) ≤ c' := Nat.cast_nonneg c'
  have hden : (0 : ℝ) < 4 * x * L := by positivity
  have f1 : (c' : ℝ) * (4 * x * L) ≤ D ^ 3 := by
    have : c' * (4 * x * L) ≤ D ^ 3 := by
      rw [e5, e3, e2, e1]
      have := Nat.div_mul_le_self (D * D * D) (4 * x * L)
      calc D * D * D / (4 * x * L) * (4 * x * L) ≤ D * D * D := this
        _ = D ^ 3 := by ring
    exact_mod_cast this
  have f2 : (D : ℝ) ^ 3 / (4 * x * L) ≤ c' + 1 := by
    rw [div_le_iff₀ hden]
    have : D ^ 3 ≤ (c' + 1) * (4 * x * L) := by
      rw [e5, e3, e2, e1]
      have := Nat.lt_mul_div_succ (D * D * D) (show 0 < 4 * x * L by positivity)
      calc D ^ 3 = D * D * D := by ring
        _ ≤ 4 * x * L * (D * D * D / (4 * x * L) + 1) := this.le
        _ = _ := by ring
    exact_mod_cast this
  have f3 : (c' : ℝ) ≤ 2 ^ 44 * D ^ 2 := by
    have g1 : (c' : ℝ) ≤ D ^ 3 / (4 * x * L) := by rw [le_div_iff₀ hden]; exact f1
    refine g1.trans ?_
    rw [div_le_iff₀ hden]
    have g2 : (x : ℝ) ≤ x * L := by nlinarith
    have g3 : (D : ℝ) ≤ 2 ^ 46 * (x * L) := by linarith
    have := mul_le_mul_of_nonneg_left g3 (sq_nonneg (D : ℝ))
    have e : (D : ℝ) ^ 3 = (D : ℝ) ^ 2 * (D : ℝ) := by ring
    rw [e]
    linarith
  have f4 : (x : ℝ) - D ≤ (b' : ℝ) - D := by
    have : (x : ℝ) ≤ b' := by exact_mod_cast (by omega : x ≤ b')
    linarith
  have f5 : (b' : ℝ) - D ≤ 2 ^ 65 := by
    have : b' ≤ x + D := by rw [e8, e7]; exact Nat.add_le_add_left (Nat.div_le_self _ _) _
    have : (b' : ℝ) ≤ x + D := by exact_mod_cast this
    linarith
  obtain ⟨Y, y1, y2, y3, y4⟩ := root_exists ((b' : ℝ) - D) c' hcR
  have hQ2 : 2 * Y + ((b' : ℝ) - D) ≤ 2 ^ 128 := by
    refine le_of_sq_le_sq ?_ (by positivity)
    rw [y4]
    have g1 : ((b' : ℝ) - D) ^ 2 ≤ (2 ^ 66) ^ 2 := by
      refine sq_le_sq' ?_ ?_
      · linarith
      · have : (2 : ℝ) ^ 65 ≤ 2 ^ 66 := by norm_num
        linarith
    have g2 : (D : ℝ) ^ 2 ≤ (2 ^ 66) ^ 2 := pow_le_pow_left₀ hDR hD66 2
    have g3 : ((2 : ℝ) ^ 66) ^ 2 + 4 * (2 ^ 44 * (2 ^ 66) ^ 2) ≤ (2 ^ 128) ^ 2 := by norm_num
    linarith
  obtain ⟨n1, n2⟩ := yLoop_close y2 y1 rfl y3 hQ2 f3
    (disc_large hxR hLR hL46R hDR f2 f4 y3 y4 hcR) h7
  refine ⟨Y, y1, by push_cast; exact y3, by push_cast; exact y2, n1, ?_⟩
  rcases n2 with n2 | n2 <;> linarith

/-- Balances of at least 100 units within a factor of a hundred million of each other, amplification up to
2^45: a swap pays out, to within one unit, what is left of `y` above the solution of the equation for an
invariant `D` that is within `8 + 4x/D + D/2x + D/2y` units of the exact one. -/
theorem C95_settled_swap_partial {amp : UInt64} {s x y : Nat} {q : SwapWithoutFeesResult}
    (hamp : amp.toNat ≤ 2 ^ 45) (hamp0 : 0 < amp.toNat) (hs : s < 2 ^ 64) (hx : 100 ≤ x) (hy : 100 ≤ y)
    (hx64 : x < 2 ^ 64) (hy64 : y < 2 ^ 64) (hxy : x ≤ 10 ^ 8 * y) (hyx : y ≤ 10 ^ 8 * x)
    (h : swapWithoutFees amp s x y = .ok q) :
    ∃ (D : ℕ) (Y : ℝ) (b c : ℤ),
      (∀ E : ℝ, 0 ≤ E → StableAtLeast (2 * amp.toNat : ℕ) x y E → E < D + 1) ∧
      StableAtLeast (2 * amp.toNat : ℕ) x y (D - (8 + 4 * x / D + D / (2 * x) + D / (2 * y))) ∧
      b = (x : ℤ) + s + D / (2 * amp.toNat) - D ∧ c = D ^ 3 / (4 * ((x : ℤ) + s) * (2 * amp.toNat)) ∧
      0 ≤ Y ∧ 0 ≤ 2 * Y + b ∧ Y ^ 2 + b * Y = c ∧
      q.source_amount_swapped = s ∧
      (y : ℝ) - Y - 1 ≤ q.destination_amount_swapped ∧ q.destination_amount_swapped < (y : ℝ) - Y + 1 := by
  unfold swapWithoutFees at h
  rw [Res.bind_eq_ok] at h
  obtain ⟨L, hL, h⟩ := h
  rw [Res.bind_eq_ok] at h
  obtain ⟨ns, hns, h⟩ := h
  rw [Res.bind_eq_ok] at h
  obtain ⟨d, hd, h⟩ := h
  rw [Res.bind_eq_ok] at h
  obtain ⟨nd, hnd, h⟩ := h
  rw [Res.bind_eq_ok] at h
  obtain ⟨o, ho, h⟩ := h
  have e1 : L = 2 * amp.toNat := by rw [(cmul_eq_ok.1 hL).2, Nat.mul_comm]
  have e2 := (cadd_eq_ok.1 hns).2
  obtain ⟨e3, e4⟩ := csub_eq_ok.1 ho
  have eq := Res.ok.inj h
  subst e1 e2
  obtain ⟨g1, g2⟩ := C95_settled_partial (by omega) hx hy hx64 hy64 hxy hyx hd
  have g3 := (computeD_close (by omega) hx hy hx64 hy64 hxy hyx
    (C95_invariant_partial (by omega) hd)).2.1
  have g4 : d ≤ 2 * (x + y) := by exact_mod_cast g3
  obtain ⟨Y, y1, y2, y3, y4, y5⟩ := C95_settled_destination_partial (L := 2 * amp.toNat) (x := x + s)
    (D := d) (by omega) (by omega) (by omega) (by omega) _ _ rfl rfl hnd
  have ey : (y : ℝ) = o + nd := by exact_mod_cast (by omega : y = o + nd)
  refine ⟨d, Y, _, _, g1, g2, rfl, rfl, y1, ?_, ?_, by rw [← eq], ?_, ?_⟩
  · push_cast at y2 ⊢; exact y2
  · push_cast at y3 ⊢; exact y3
  · rw [← eq]; show _ ≤ (o : ℝ); linarith
  · rw [← eq]; show (o : ℝ) < _; linarith

/-- Met by balances of a thousand and of fifty billion, amplification 10, and a swap of 500, -/
example : swapWithoutFees 10 500 1000 50000000000 = .ok ⟨500, 9113915204⟩ ∧
    computeD 20 1000 50000000000 = .ok 582734321 := by decide +kernel

example : StableAtLeast (20 : Nat) (1000 : Nat) (50000000000 : Nat) 582400000 := by
  have h := (C95_settled_partial (L := 20) (x := 1000) (y := 50000000000) (d := 582734321) (by decide)
    (by decide) (by decide) (by decide) (by decide) (by decide) (by decide) (by decide +kernel)).2
  unfold StableAtLeast at h ⊢
  norm_num at h ⊢

example : ∃ (D : ℕ) (Y : ℝ), StableAtLeast (2 * (10 : UInt64).toNat : ℕ) (1000 : Nat) (50000000000 : Nat)
      (D - (8 + 4 * (1000 : Nat) / D + D / (2 * (1000 : Nat)) + D / (2 * (50000000000 : Nat)))) ∧
    0 ≤ Y ∧ (50000000000 : Nat) - Y - 1 ≤ (9113915204 : Nat) ∧
    ((9113915204 : Nat) : ℝ) < (50000000000 : Nat) - Y + 1 := by
  obtain ⟨D, Y, b, c, _, h2, _, _, h5, _, _, _, h9, h10⟩ := C95_settled_swap_partial (amp := 10) (s := 500)
    (x := 1000) (y := 50000000000) (q := ⟨500, 9113915204⟩) (by decide) (by decide) (by decide) (by decide)
    (by decide) (by decide) (by decide) (by decide) (by decide) (by decide +kernel)
  exact ⟨D, Y, h2, h5, h9, h10⟩

/-- With the witness of `C95_false` the balances are too uneven and one of them too small. -/
example : ¬ (2 ^ 64 - 1 ≤ 10 ^ 8 * 1) := by decide

end Props
end Verif
