import Verif.Props.Basket
import Verif.Spec.Cut

/-
C106: the owner's fee on trades of constant-product and offset pools.
-/

namespace Verif.Props
open Verif Spec

/-- The library's root is such a root. -/
theorem C106_root (h : Bool) : ReachRoot (Spl.library h) := by
  intro w r hr
  have hr' : Spl.sqrt w = .ok r := hr
  rcases Nat.eq_zero_or_pos w with h0 | h0
  · subst h0
    rw [Nat.zero_mul]
    exact Nat.mul_pos (Nat.succ_pos _) (Nat.succ_pos _)
  rcases C105_root w h0 with h1 | ⟨r', h1, h2, _⟩
  · rw [h1.2] at hr'; cases hr'
  · rw [h1] at hr'
    rw [← Res.ok.inj hr']
    exact lt_of_le_of_lt (Nat.le_add_right _ _) h2

/-- What the pool would keep of a trade if the owner fee had not been taken in. -/
theorem swap_spared {e : SplEnv} {c : Curve} {f : Fees} {o s : Nat} {x : Pool} {dir : TradeDirection}
    {r : SwapResult} (ho : productOffset c = some o) (hA : 0 < x.A) (hB : 0 < x.B + o)
    (hr : c.swap e s (x.src dir) (x.dst dir) dir f = .ok r) (m : Nat) :
    ∃ v w, rootSide c dir (x.trade dir r.source_amount_swapped r.destination_amount_swapped m).A
        (x.trade dir r.source_amount_swapped r.destination_amount_swapped m).B = some v ∧
      v * w = (x.trade dir r.source_amount_swapped r.destination_amount_swapped m).A *
        ((x.trade dir r.source_amount_swapped r.destination_amount_swapped m).B + o) ∧
      r.owner_fee ≤ r.source_amount_swapped ∧ r.owner_fee ≤ v ∧
      x.A * (x.B + o) ≤ (v - r.owner_fee) * w := by
  obtain ⟨q, _, _, _, h4, h5, h6, h7, h8, h9⟩ := Curve.swap_inv hr
  cases c with
  | constantPrice p => simp [productOffset] at ho
  | stable a => simp [productOffset] at ho
  | linear l => simp [productOffset] at ho
  | constantProduct =>
    have : o = 0 := by simpa [productOffset] using ho.symm
    subst this
    obtain ⟨_, _, _, hp⟩ := ConstantProduct.swap_ok h4
    cases dir with
    | AtoB =>
      simp only [Pool.src, Pool.dst] at *
      refine ⟨x.A + r.source_amount_swapped, x.B - r.destination_amount_swapped, rfl, rfl, by omega,
        by omega, ?_⟩
      rw [h5, h6, Nat.add_zero]
      exact le_trans (hp hA) (Nat.mul_le_mul_right _ (by omega))
    | BtoA =>
      simp only [Pool.src, Pool.dst] at *
      refine ⟨x.B + r.source_amount_swapped, x.A - r.destination_amount_swapped, rfl,
        Nat.mul_comm _ _, by omega, by omega, ?_⟩
      rw [h5, h6, Nat.add_zero, Nat.mul_comm]
      exact le_trans (hp hB) (Nat.mul_le_mul_right _ (by omega))
  | offset u =>
    have : o = u.toNat := by simpa [productOffset] using ho.symm
    subst this
    cases dir with
    | AtoB =>
      simp only [Pool.src, Pool.dst] at *
      have h4' : Offset.swapWithoutFees e u (s - (r.trade_fee + r.owner_fee)) x.A x.B .AtoB = .ok q := h4
      unfold Offset.swapWithoutFees at h4'
      simp only [] at h4'
      rw [Res.ok_bind, Res.bind_eq_ok] at h4'
      obtain ⟨sd, hsd, h4'⟩ := h4'
      obtain ⟨_, _, _, hp⟩ := ConstantProduct.swap_ok h4'
      have e1 := (cadd_eq_ok.1 hsd).2
      refine ⟨x.A + r.source_amount_swapped, x.B - r.destination_amount_swapped + u.toNat, rfl, rfl,
        by omega, by omega, ?_⟩
      rw [h5, h6, ← e1]
      have e2 : x.B - q.destination_amount_swapped + u.toNat = sd - q.destination_amount_swapped := by
        omega
      rw [e2, e1]
      rw [e1] at hp
      exact le_trans (hp hA) (Nat.mul_le_mul_right _ (by omega))
    | BtoA =>
      simp only [Pool.src, Pool.dst] at *
      have h4' : Offset.swapWithoutFees e u (s - (r.trade_fee + r.owner_fee)) x.B x.A .BtoA = .ok q := h4
      unfold Offset.swapWithoutFees at h4'
      simp only [] at h4'
      rw [Res.bind_eq_ok] at h4'
      obtain ⟨ss, hss, h4'⟩ := h4'
      rw [Res.ok_bind] at h4'
      obtain ⟨_, _, _, hp⟩ := ConstantProduct.swap_ok h4'
      have e1 := (cadd_eq_ok.1 hss).2
      refine ⟨x.B + r.source_amount_swapped + u.toNat, x.A - r.destination_amount_swapped, rfl,
        Nat.mul_comm _ _, by omega, by omega, ?_⟩
      rw [h5, h6, Nat.mul_comm]
      rw [e1] at hp
      exact le_trans (hp hB) (Nat.mul_le_mul_right _ (by omega))

/-- The arithmetic of the minted fee: `t` are the pool tokens afterwards less one and a unit. -/
theorem mint_bound {O S m r q v c : Nat} (hr : r ≤ O) (h1 : q * v ≤ c * O) (hq : q ≤ O)
    (h2 : m * O < S * (O - r) + O) (h3 : (O - q) * O < (r + 1) * (r + 1)) (hO : 0 < O) :
    (O * (S + m) - O - S) ^ 2 * (v - c) ≤ (O * S) ^ 2 * v := by
  have t1 : O * (S + m) - O - S ≤ S * (2 * O - (r + 1)) := by
    obtain ⟨d, rfl⟩ := Nat.exists_eq_add_of_le hr
    rw [Nat.add_sub_cancel_left] at h2
    have e2 : (r + d) * (S + m) = S * r + S * d + m * (r + d) := by ring
    have e3 : 2 * (r + d) - (r + 1) + 1 = r + 2 * d := by omega
    have e4 : S * (2 * (r + d) - (r + 1)) + S = S * r + S * d + S * d := by
      generalize 2 * (r + d) - (r + 1) = g at *
      calc S * g + S = S * (g + 1) := by ring
        _ = S * (r + 2 * d) := by rw [e3]
        _ = _ := by ring
    omega
  have t2 : (2 * O - (r + 1)) * (r + 1) ≤ O * O := by
    rcases Nat.lt_or_ge r O with h | h
    · obtain ⟨d, rfl⟩ := Nat.exists_eq_add_of_lt h
      rw [show 2 * (r + d + 1) - (r + 1) = r + 1 + 2 * d by omega]
      have : (r + d + 1) * (r + d + 1) = (r + 1 + 2 * d) * (r + 1) + d * d := by ring
      omega
    · have : r = O := by omega
      subst this
      obtain ⟨d, rfl⟩ := Nat.exists_eq_add_of_lt hO
      rw [show 2 * (0 + d + 1) - (0 + d + 1 + 1) = d by omega]
      have : (0 + d + 1) * (0 + d + 1) = d * (0 + d + 1 + 1) + 1 := by ring
      omega
  have t3 : (O * (S + m) - O - S) * (r + 1) ≤ S * (O * O) :=
    le_trans (Nat.mul_le_mul_right _ t1) (by rw [Nat.mul_assoc]; exact Nat.mul_le_mul_left _ t2)
  have t4 : (v - c) * (O * O) ≤ (r + 1) * (r + 1) * v := by
    have a1 : (v - c) * O ≤ (O - q) * v := by
      rw [Nat.sub_mul, Nat.sub_mul, Nat.mul_comm v O]
      exact Nat.sub_le_sub_left h1 _
    calc (v - c) * (O * O) = (v - c) * O * O := by ring
      _ ≤ (O - q) * v * O := Nat.mul_le_mul_right _ a1
      _ = (O - q) * O * v := by ring
      _ ≤ (r + 1) * (r + 1) * v := Nat.mul_le_mul_right _ (le_of_lt h3)
  generalize O * (S + m) - O - S = t at *
  refine Nat.le_of_mul_le_mul_right ?_ (Nat.mul_pos hO hO)
  calc t ^ 2 * (v - c) * (O * O) = t ^ 2 * ((v - c) * (O * O)) := by ring
    _ ≤ t ^ 2 * ((r + 1) * (r + 1) * v) := Nat.mul_le_mul_left _ t4
    _ = t * (r + 1) * (t * (r + 1)) * v := by ring
    _ ≤ S * (O * O) * (S * (O * O)) * v := Nat.mul_le_mul_right _ (Nat.mul_le_mul t3 t3)
    _ = _ := by ring

/-- C106.  One trade with its owner fee, on a pool with `S` pool tokens before and `S'` after: the pool
tokens minted for the fee cost the other holders no more than one pool token and one part in 10¹²,
`(S' - 1 - S·10⁻¹²)²·A·B ≤ S²·A'·B'` (token B's balances with the offset). -/
theorem C106_swap (e : SplEnv) (c : Curve) (f : Fees) (o s m : Nat) (x : Pool) (dir : TradeDirection)
    (r : SwapResult) (ho : productOffset c = some o) (hv : f.validate = .ok ()) (hsq : ReachRoot e)
    (hA : 0 < x.A) (hB : 0 < x.B + o)
    (hr : c.swap e s (x.src dir) (x.dst dir) dir f = .ok r)
    (hm : c.withdrawSingle e r.owner_fee
      (x.trade dir r.source_amount_swapped r.destination_amount_swapped 0).A
      (x.trade dir r.source_amount_swapped r.destination_amount_swapped 0).B x.S dir f = .ok m)
    (hx : x.Small) (hy : (x.trade dir r.source_amount_swapped r.destination_amount_swapped m).Small) :
    x.A * (x.B + o) * (1000000000000 * (x.S + m) - 1000000000000 - x.S) ^ 2 ≤
      (x.trade dir r.source_amount_swapped r.destination_amount_swapped m).A *
        ((x.trade dir r.source_amount_swapped r.destination_amount_swapped m).B + o) *
        (1000000000000 * x.S) ^ 2 := by
  obtain ⟨v, w, a1, a2, a3, a4, a5⟩ := swap_spared ho hA hB hr m
  have eA : (x.trade dir r.source_amount_swapped r.destination_amount_swapped m).A =
      (x.trade dir r.source_amount_swapped r.destination_amount_swapped 0).A := by cases dir <;> rfl
  have eB : (x.trade dir r.source_amount_swapped r.destination_amount_swapped m).B =
      (x.trade dir r.source_amount_swapped r.destination_amount_swapped 0).B := by cases dir <;> rfl
  have hfs : r.owner_fee < 2 ^ 64 := by
    obtain ⟨y1, y2, _⟩ := hy
    cases dir <;> simp only [Pool.trade] at y1 y2 <;> omega
  rw [← a2]
  rcases Nat.eq_zero_or_pos r.owner_fee with h0 | h0
  · have hm0 : m = 0 := by
      rw [h0] at hm
      unfold Curve.withdrawSingle at hm
      rw [if_pos rfl] at hm
      exact (Res.ok.inj hm).symm
    rw [h0, Nat.sub_zero] at a5
    rw [hm0, Nat.add_zero]
    exact Nat.mul_le_mul a5 (Nat.pow_le_pow_left (by omega) _)
  · obtain ⟨y1, y2, _⟩ := hy
    rw [eA, eB] at a1
    rw [eA] at y1
    rw [eB] at y2
    obtain ⟨q, rt, b1, b2, b3, b4, b5⟩ :=
      (C59_root_withdraw e c r.owner_fee _ _ x.S v m dir f a1 hv (by omega) hfs y1 y2 hx.2.2).1 hm
    have key := mint_bound (O := 1000000000000) (v := v) (c := counted f r.owner_fee) b4 b1.1 b2 b5.2
      (hsq _ _ b3) (by decide)
    have hc : v - r.owner_fee ≤ v - counted f r.owner_fee := Nat.sub_le_sub_left (Nat.sub_le _ _) _
    generalize 1000000000000 * (x.S + m) - 1000000000000 - x.S = t at *
    generalize 1000000000000 * x.S = u at *
    calc x.A * (x.B + o) * t ^ 2 ≤ (v - counted f r.owner_fee) * w * t ^ 2 :=
          Nat.mul_le_mul_right _ (le_trans a5 (Nat.mul_le_mul_right _ hc))
      _ = t ^ 2 * (v - counted f r.owner_fee) * w := by ring
      _ ≤ u ^ 2 * v * w := Nat.mul_le_mul_right _ key
      _ = _ := by ring

/-- C106 in full: the owner fee on a trade leaves the other holders what they had. -/
def C106_statement : Prop :=
  ∀ (e : SplEnv) (c : Curve) (f : Fees) (o s m : Nat) (x : Pool) (dir : TradeDirection) (r : SwapResult),
    productOffset c = some o → f.validate = .ok () → ReachRoot e → NearRoot e → 0 < x.A → 0 < x.B + o →
    c.swap e s (x.src dir) (x.dst dir) dir f = .ok r →
    c.withdrawSingle e r.owner_fee
      (x.trade dir r.source_amount_swapped r.destination_amount_swapped 0).A
      (x.trade dir r.source_amount_swapped r.destination_amount_swapped 0).B x.S dir f = .ok m →
    x.Small → (x.trade dir r.source_amount_swapped r.destination_amount_swapped m).Small →
    Keeps o 0 x (x.trade dir r.source_amount_swapped r.destination_amount_swapped m)

/-- A fee of one in a thousand for the owner. -/
def ownerCut : Fees := ⟨0, 0, 1, 1000, 0, 0, 0, 0⟩

/-- A trade of 2000 A on a new pool (10⁹ pool tokens) of 10¹² A and 10¹² B. -/
def cutPool : Pool := ⟨1000000000000, 1000000000000, 1000000000⟩

/-- C106 is false: fees are paid in whole pool tokens, rounded up.  On a new pool of 10¹² A and 10¹² B a
trade of 2000 A pays a fee of 2 A and mints one pool token, for which 1000 A and 999 B can be had. -/
theorem C106_false : ¬ C106_statement ∧
    Curve.constantProduct.swap (Spl.library true) 2000 cutPool.A cutPool.B .AtoB ownerCut =
      .ok ⟨1000000002000, 999999998003, 2000, 1997, 0, 2⟩ ∧
    Curve.constantProduct.withdrawSingle (Spl.library true) 2 1000000002000 999999998003 cutPool.S .AtoB
      ownerCut = .ok 1 ∧
    Curve.constantProduct.poolTokensToTradingTokens (Spl.library true) 1 1000000001 1000000002000
      999999998003 .Floor = .ok ⟨1000, 999⟩ := by
  have h1 : Curve.constantProduct.swap (Spl.library true) 2000 cutPool.A cutPool.B .AtoB ownerCut =
      .ok ⟨1000000002000, 999999998003, 2000, 1997, 0, 2⟩ := by decide +kernel
  have h2 : Curve.constantProduct.withdrawSingle (Spl.library true) 2 1000000002000 999999998003 cutPool.S
      .AtoB ownerCut = .ok 1 := by decide +kernel
  refine ⟨fun h => ?_, h1, h2, by decide +kernel⟩
  have := h (Spl.library true) .constantProduct ownerCut 0 2000 1 cutPool .AtoB
    ⟨1000000002000, 999999998003, 2000, 1997, 0, 2⟩ rfl (by decide +kernel) (C106_root _) (C105_near _)
    (by decide) (by decide) h1 h2 (by decide) (by decide)
  revert this
  decide +kernel

theorem keepsBut_trans {o h n k : Nat} {x y z : Pool} (h1 : KeepsBut o h n x y) (h2 : KeepsBut o h k y z)
    (hy : y.S = 0 → z.S = 0) : KeepsBut o h (n + k) x z := by
  unfold KeepsBut at *
  rcases Nat.eq_zero_or_pos y.S with h0 | h0
  · rw [hy h0]; simp
  · refine Nat.le_of_mul_le_mul_right ?_ (Nat.pow_pos (n := 2) h0)
    rw [Nat.pow_add, Nat.pow_add]
    generalize (1000000000000 * h - 1000000000000 - h) ^ n = a at *
    generalize (1000000000000 * h) ^ n = a' at *
    generalize (1000000000000 * h - 1000000000000 - h) ^ k = b at *
    generalize (1000000000000 * h) ^ k = b' at *
    calc x.A * (x.B + o) * z.S ^ 2 * (a * b) ^ 2 * y.S ^ 2
        = x.A * (x.B + o) * y.S ^ 2 * a ^ 2 * (z.S ^ 2 * b ^ 2) := by ring
      _ ≤ y.A * (y.B + o) * x.S ^ 2 * a' ^ 2 * (z.S ^ 2 * b ^ 2) := Nat.mul_le_mul_right _ h1
      _ = y.A * (y.B + o) * z.S ^ 2 * b ^ 2 * (x.S ^ 2 * a' ^ 2) := by ring
      _ ≤ z.A * (z.B + o) * y.S ^ 2 * b' ^ 2 * (x.S ^ 2 * a' ^ 2) := Nat.mul_le_mul_right _ h2
      _ = _ := by ring

theorem keepsBut_zero {o h n : Nat} {x y : Pool}
    (hk : x.A * (x.B + o) * y.S ^ 2 ≤ y.A * (y.B + o) * x.S ^ 2) : KeepsBut o h n x y := by
  unfold KeepsBut
  exact Nat.mul_le_mul hk (Nat.pow_le_pow_left (Nat.pow_le_pow_left (by omega) _) _)

theorem keepsBut_one {o h : Nat} {x y : Pool} (hk : Keeps o 1 x y) : KeepsBut o h 1 x y := by
  unfold Keeps at hk
  unfold KeepsBut
  rw [Nat.pow_one, Nat.pow_one] at *
  have h1 : 1000000000000 * h - 1000000000000 - h ≤ h * 999999999999 := by omega
  have h2 : (999999999999 ^ 2 * 1000000000001 : Nat) ≤ 1000000000000 ^ 2 * 1000000000000 := by decide
  refine Nat.le_of_mul_le_mul_right ?_ (show 0 < 1000000000000 by decide)
  generalize 1000000000000 * h - 1000000000000 - h = t at *
  generalize 1000000000000 = a at *
  generalize 999999999999 = b at *
  generalize 1000000000001 = d at *
  calc x.A * (x.B + o) * y.S ^ 2 * t ^ 2 * a = x.A * (x.B + o) * y.S ^ 2 * a * t ^ 2 := by ring
    _ ≤ y.A * (y.B + o) * x.S ^ 2 * d * (h * b) ^ 2 := Nat.mul_le_mul hk (Nat.pow_le_pow_left h1 _)
    _ = y.A * (y.B + o) * x.S ^ 2 * h ^ 2 * (b ^ 2 * d) := by ring
    _ ≤ y.A * (y.B + o) * x.S ^ 2 * h ^ 2 * (a ^ 2 * a) := Nat.mul_le_mul_left _ h2
    _ = _ := by ring

/-- The same fees without the owner's on trades. -/
def uncut (f : Fees) : Fees := { f with owner_trade_fee_numerator := 0, owner_trade_fee_denominator := 0 }

theorem uncut_ok {f : Fees} (h : f.validate = .ok ()) : (uncut f).validate = .ok () := by
  unfold Fees.validate uncut at *
  revert h
  cases validateFraction f.trade_fee_numerator f.trade_fee_denominator with
  | error _ => intro h; exact h
  | ok _ =>
    cases validateFraction f.owner_trade_fee_numerator f.owner_trade_fee_denominator with
    | error _ => intro h; cases h
    | ok _ => exact fun h => h

theorem cut_combine {X X' S S' h a t u : Nat} (h1 : S' * t ≤ h * u) (h2 : X * u ^ 2 ≤ X' * (a * S) ^ 2) :
    X * S' ^ 2 * t ^ 2 ≤ X' * S ^ 2 * (a * h) ^ 2 :=
  calc X * S' ^ 2 * t ^ 2 = X * (S' * t) ^ 2 := by ring
    _ ≤ X * (h * u) ^ 2 := Nat.mul_le_mul_left _ (Nat.pow_le_pow_left h1 _)
    _ = X * u ^ 2 * h ^ 2 := by ring
    _ ≤ X' * (a * S) ^ 2 * h ^ 2 := Nat.mul_le_mul_right _ h2
    _ = _ := by ring

theorem held_step {h : Nat} {e : SplEnv} {c : Curve} {f : Fees} {o : Nat} (ho : productOffset c = some o)
    (hv : f.validate = .ok ()) (hsq : NearRoot e) (hrr : ReachRoot e) {k : Nat} {x y : Pool}
    (hs : RootStep false e c f k x y) (hx : Alive o x) (hx0 : 0 < x.S) (sx : x.Small) (sy : y.Small)
    (hS : h ≤ y.S) : KeepsBut o h (issueCount x y) x y ∧ Alive o y := by
  cases hs with
  | swap q dir s m r hr hm =>
    obtain ⟨hA, hB⟩ : 0 < x.A ∧ 0 < x.B + o := by
      rcases hx with h0 | h0
      · omega
      · exact h0
    have eS : (x.trade dir r.source_amount_swapped r.destination_amount_swapped m).S = x.S + m := by
      cases dir <;> rfl
    obtain ⟨v, w, a1, a2, a3, a4, a5⟩ := swap_spared ho hA hB hr m
    have grow := le_trans a5 (Nat.mul_le_mul_right w (Nat.sub_le v r.owner_fee))
    rw [a2] at grow
    refine ⟨?_, .inr (mul_pos_split hA hB grow)⟩
    rcases Nat.eq_zero_or_pos m with h0 | h0
    · subst h0
      refine keepsBut_zero ?_
      rw [eS, Nat.add_zero]
      exact Nat.mul_le_mul_right _ grow
    · have key := C106_swap e c f o s m x dir r ho hv hrr hA hB hr hm sx sy
      rw [eS] at hS
      have e1 : issueCount x (x.trade dir r.source_amount_swapped r.destination_amount_swapped m) = 1 :=
        if_pos (by rw [eS]; omega)
      unfold KeepsBut
      rw [e1, eS, Nat.pow_one, Nat.pow_one]
      have t1 : (x.S + m) * (1000000000000 * h - 1000000000000 - h) ≤
          h * (1000000000000 * (x.S + m) - 1000000000000 - x.S) := by
        have b1 : h * x.S ≤ (x.S + m) * h := by
          rw [Nat.mul_comm]; exact Nat.mul_le_mul_right _ (Nat.le_add_right _ _)
        have b2 : h * 1000000000000 ≤ (x.S + m) * 1000000000000 := Nat.mul_le_mul_right _ hS
        rw [Nat.mul_sub, Nat.mul_sub, Nat.mul_sub, Nat.mul_sub]
        have b3 : (x.S + m) * (1000000000000 * h) = h * (1000000000000 * (x.S + m)) := by ring
        rw [b3]
        omega
      exact cut_combine t1 key
  | depositAll q pt r hd hr ha hb =>
    obtain ⟨j1, j2, _⟩ := root_step ho (uncut_ok hv) rfl hsq
      (RootStep.depositAll (single := false) (f := uncut f) x pt r hd hr ha hb) hx
    refine ⟨keepsBut_zero ?_, j2⟩
    unfold Keeps at j1
    simpa using j1
  | withdrawAll q pt a b r hr ha hb hA hB hS' =>
    obtain ⟨j1, j2, _⟩ := root_step ho (uncut_ok hv) rfl hsq
      (RootStep.withdrawAll (single := false) (f := uncut f) x pt a b r hr ha hb hA hB hS') hx
    refine ⟨keepsBut_zero ?_, j2⟩
    unfold Keeps at j1
    simpa using j1
  | donate q u v =>
    obtain ⟨j1, j2, _⟩ := root_step ho (uncut_ok hv) rfl hsq
      (RootStep.donate (single := false) (e := e) (c := c) (f := uncut f) x u v) hx
    refine ⟨keepsBut_zero ?_, j2⟩
    unfold Keeps at j1
    simpa using j1
  | depositSingle q dir s m hs hA hB hS' hm =>
    obtain ⟨j1, j2, _⟩ := root_step ho (uncut_ok hv) rfl hsq
      (RootStep.depositSingle (single := false) (f := uncut f) x dir s m hs hA hB hS' hm) hx
    have eS : (x.trade dir s 0 m).S = x.S + m := by cases dir <;> rfl
    refine ⟨?_, j2⟩
    rcases Nat.eq_zero_or_pos m with h0 | h0
    · subst h0
      refine keepsBut_zero ?_
      rw [eS, Nat.add_zero]
      refine Nat.mul_le_mul_right _ (Nat.mul_le_mul ?_ (Nat.add_le_add_right ?_ _)) <;>
        cases dir <;> simp only [Pool.trade] <;> omega
    · have e1 : issueCount x (x.trade dir s 0 m) = 1 := if_pos (by rw [eS]; omega)
      rw [e1]
      exact keepsBut_one j1
  | withdrawSingle q dir s m hsg => cases hsg

/-- C106, what holds over whole histories: while somebody holds `h` pool tokens, the geometric mean of the
balances per pool token falls, with every operation that issues pool tokens, by no more than one part in
`h` and one in 10¹²; and no side runs empty. -/
theorem C106_history_partial (h : Nat) (e : SplEnv) (c : Curve) (f : Fees) (o n : Nat) (x y : Pool)
    (ho : productOffset c = some o) (hv : f.validate = .ok ()) (hsq : NearRoot e) (hrr : ReachRoot e)
    (hA : 0 < x.A) (hB : 0 < x.B + o) (h0 : 0 < h) (hS : h ≤ x.S) (hh : HeldHistory h e c f n x y) :
    KeepsBut o h n x y ∧ 0 < y.A ∧ 0 < y.B + o := by
  have key : KeepsBut o h n x y ∧ Alive o y ∧ h ≤ y.S := by
    induction hh with
    | refl => exact ⟨keepsBut_zero (le_refl _), .inr ⟨hA, hB⟩, hS⟩
    | tail _ hs hy hz hS' ih =>
      obtain ⟨i1, i2, i3⟩ := ih hA hB hS
      obtain ⟨j1, j2⟩ := held_step ho hv hsq hrr hs i2 (by omega) hy hz hS'
      exact ⟨keepsBut_trans i1 j1 (fun h => by omega), j2, hS'⟩
  refine ⟨key.1, ?_⟩
  rcases key.2.1 with h1 | h1
  · omega
  · exact h1

/-- C106.  So the holder of `h` pool tokens can take out amounts `a` and `b` with
`h²·A·(B + o)·(1 - 1/h - 10⁻¹²)²ⁿ < (a + 1)·(b + 1)·S²`. -/
theorem C106_share_partial (h : Nat) (e : SplEnv) (c : Curve) (f : Fees) (o n : Nat) (x y : Pool)
    (r : TradingTokenResult) (ho : productOffset c = some o) (hv : f.validate = .ok ()) (hsq : NearRoot e)
    (hrr : ReachRoot e) (hA : 0 < x.A) (hB : 0 < x.B + o) (h0 : 0 < h) (hS : h ≤ x.S)
    (hh : HeldHistory h e c f n x y)
    (hr : c.poolTokensToTradingTokens e h y.S y.A y.B .Floor = .ok r) :
    h ^ 2 * (x.A * (x.B + o)) * ((1000000000000 * h - 1000000000000 - h) ^ n) ^ 2 <
      (r.token_a_amount + 1) * (r.token_b_amount + 1) * x.S ^ 2 * ((1000000000000 * h) ^ n) ^ 2 := by
  obtain ⟨hk, _⟩ := C106_history_partial h e c f o n x y ho hv hsq hrr hA hB h0 hS hh
  obtain ⟨hSp, h3⟩ := paid_out ho hr
  unfold KeepsBut at hk
  have hXX : 0 < x.S ^ 2 * ((1000000000000 * h) ^ n) ^ 2 :=
    Nat.mul_pos (Nat.pow_pos (by omega)) (Nat.pow_pos (Nat.pow_pos (by omega)))
  apply Nat.lt_of_mul_lt_mul_right (a := y.S ^ 2)
  generalize (1000000000000 * h - 1000000000000 - h) ^ n = k at *
  generalize (1000000000000 * h) ^ n = k' at *
  calc h ^ 2 * (x.A * (x.B + o)) * k ^ 2 * y.S ^ 2 = h ^ 2 * (x.A * (x.B + o) * y.S ^ 2 * k ^ 2) := by ring
    _ ≤ h ^ 2 * (y.A * (y.B + o) * x.S ^ 2 * k' ^ 2) := Nat.mul_le_mul_left _ hk
    _ = h * y.A * (h * (y.B + o)) * (x.S ^ 2 * k' ^ 2) := by ring
    _ < (r.token_a_amount + 1) * y.S * ((r.token_b_amount + 1) * y.S) * (x.S ^ 2 * k' ^ 2) :=
      Nat.mul_lt_mul_of_pos_right h3 hXX
    _ = _ := by ring

/-- A trade with an owner fee (11 pool tokens) and a one-sided deposit, while somebody holds 300 pool
tokens. -/
def basketCut : Fees := ⟨25, 10000, 5, 1000, 1, 100, 20, 100⟩

theorem cut_sample : HeldHistory 300 (Spl.library true) .constantProduct basketCut 2
    ⟨5000, 7000, 30000⟩ ⟨7302, 5841, 33105⟩ := by
  have h1 : RootStep false (Spl.library true) .constantProduct basketCut 0 ⟨5000, 7000, 30000⟩
      ⟨6000, 5841, 30011⟩ :=
    .swap ⟨5000, 7000, 30000⟩ .AtoB 1000 11 ⟨6000, 5841, 1000, 1159, 2, 5⟩ (by decide +kernel)
      (by decide +kernel)
  have h2 : RootStep false (Spl.library true) .constantProduct basketCut 1 ⟨6000, 5841, 30011⟩
      ⟨7302, 5841, 33105⟩ :=
    .depositSingle ⟨6000, 5841, 30011⟩ .AtoB 1302 3094 (by decide) (by decide) (by decide) (by decide)
      (by decide +kernel)
  exact .tail (.tail (.refl _) h1 (by decide) (by decide) (by decide)) h2 (by decide) (by decide) (by decide)

example := C106_history_partial 300 (Spl.library true) .constantProduct basketCut 0 2 _ _ rfl
  (by decide +kernel) (C105_near _) (C106_root _) (by decide) (by decide) (by decide) (by decide) cut_sample

example := C106_share_partial 300 (Spl.library true) .constantProduct basketCut 0 2 _ _ ⟨66, 52⟩ rfl
  (by decide +kernel) (C105_near _) (C106_root _) (by decide) (by decide) (by decide) (by decide) cut_sample
  (by decide +kernel)

/-- A trade on an offset pool. -/
example := C106_swap (Spl.library false) (.offset 1000) basketCut 1000 400 2 ⟨5000, 700, 20000⟩ .AtoB
  ⟨5400, 575, 400, 125, 1, 2⟩ rfl (by decide +kernel) (C106_root _) (by decide) (by decide)
  (by decide +kernel) (by decide +kernel) (by decide) (by decide)

end Verif.Props
