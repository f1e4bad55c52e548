import Verif.Lemmas.Processor
import Mathlib.Algebra.BigOperators.Group.Finset.Piecewise

/-
Effects of token calls: balances, conservation, authorisation.
-/

namespace Verif
open Spec

theorem when_pos {c : Prop} [Decidable c] (h : c) (x : Int) : when c x = x := if_pos h

theorem when_neg {c : Prop} [Decidable c] (h : ¬ c) (x : Int) : when c x = 0 := if_neg h

theorem when_zero (c : Prop) [Decidable c] : when c 0 = 0 := by
  unfold Spec.when; split <;> rfl

theorem when_nonneg {c : Prop} [Decidable c] {x : Int} (h : 0 ≤ x) : 0 ≤ when c x := by
  unfold Spec.when
  split
  · exact h
  · exact Int.le_refl 0

theorem bal_nonneg (w : World) (k : Pubkey) : 0 ≤ bal w k := by
  unfold bal
  split
  · exact Int.natCast_nonneg _
  · exact Int.le_refl 0

/-! ### Effects -/

theorem Spec.Effect.refl (w : World) : Effect w w (fun _ => 0) (fun _ => 0) [] :=
  ⟨Frame.refl w, fun k => by omega, fun k => by omega, fun _ _ => rfl⟩

theorem Spec.Effect.trans {a b c : World} {d1 s1 d2 s2 : Pubkey → Int} {t1 t2 : List Pubkey}
    (h1 : Effect a b d1 s1 t1) (h2 : Effect b c d2 s2 t2) :
    Effect a c (fun k => d1 k + d2 k) (fun k => s1 k + s2 k) (t1 ++ t2) :=
  ⟨h1.frame.trans h2.frame, fun k => by rw [h2.bal, h1.bal]; omega,
    fun k => by rw [h2.supply, h1.supply]; omega, fun k hk => by
      rw [h2.same k (fun hh => hk (List.mem_append_right _ hh)),
        h1.same k (fun hh => hk (List.mem_append_left _ hh))]⟩

theorem Spec.Effect.mono {a b : World} {d1 s1 d2 s2 : Pubkey → Int} {t1 t2 : List Pubkey}
    (h : Effect a b d1 s1 t1) (hd : ∀ k, d1 k = d2 k) (hs : ∀ k, s1 k = s2 k)
    (ht : ∀ k ∈ t1, k ∈ t2) : Effect a b d2 s2 t2 :=
  ⟨h.frame, fun k => by rw [h.bal, hd], fun k => by rw [h.supply, hs],
    fun k hk => h.same k (fun hh => hk (ht k hh))⟩

theorem Moved.effect {signed : Pubkey → Bool} {tp src dst a : Pubkey} {x : UInt64} {w w' : World}
    (h : Moved signed tp src dst a x w w') :
    Effect w w' (fun k => when (k = dst) x.toNat - when (k = src) x.toNat) (fun _ => 0)
      [src, dst] :=
  ⟨h.frame, fun k => by rw [h.bal]; omega, fun k => by rw [h.supply]; omega, fun k hk => by
    simp only [List.mem_cons, List.not_mem_nil, or_false, not_or] at hk
    exact h.same k hk.1 hk.2⟩

theorem Minted.effect {signed : Pubkey → Bool} {tp mint dst a : Pubkey} {x : UInt64} {w w' : World}
    (h : Minted signed tp mint dst a x w w') :
    Effect w w' (fun k => when (k = dst) x.toNat) (fun k => when (k = mint) x.toNat)
      [mint, dst] :=
  ⟨h.frame, fun k => by rw [h.bal], fun k => by rw [h.supply], fun k hk => by
    simp only [List.mem_cons, List.not_mem_nil, or_false, not_or] at hk
    exact h.same k hk.1 hk.2⟩

theorem Burnt.effect {signed : Pubkey → Bool} {tp mint src a : Pubkey} {x : UInt64} {w w' : World}
    (h : Burnt signed tp src mint a x w w') :
    Effect w w' (fun k => - when (k = src) x.toNat) (fun k => - when (k = mint) x.toNat)
      [mint, src] :=
  ⟨h.frame, fun k => by rw [h.bal]; omega, fun k => by rw [h.supply]; omega, fun k hk => by
    simp only [List.mem_cons, List.not_mem_nil, or_false, not_or] at hk
    exact h.same k hk.1 hk.2⟩

/-! ### Conservation -/

theorem Spec.Conserved.refl (F : Finset Pubkey) (pm : Pubkey) (w : World) : Conserved F pm w w :=
  ⟨fun m => by rw [Int.sub_self, when_zero]; omega, fun _ _ => rfl⟩

theorem Spec.Conserved.trans {F : Finset Pubkey} {pm : Pubkey} {a b c : World}
    (h1 : Conserved F pm a b) (h2 : Conserved F pm b c) : Conserved F pm a c := by
  refine ⟨fun m => ?_, fun m hm => (h2.2 m hm).trans (h1.2 m hm)⟩
  rw [h2.1, h1.1]
  by_cases hm : m = pm
  · rw [when_pos hm, when_pos hm, when_pos hm]; omega
  · rw [when_neg hm, when_neg hm, when_neg hm]; omega

theorem sum_when_single (F : Finset Pubkey) (d : Pubkey) (hd : d ∈ F) (f : Pubkey → Int) :
    ∑ k ∈ F, when (k = d) (f k) = f d := by
  unfold Spec.when
  rw [Finset.sum_ite_eq' F d f, if_pos hd]

/-- Change of a total from changes of balances. -/
theorem total_diff {w w' : World} {F : Finset Pubkey} {m : Pubkey} {db : Pubkey → Int}
    (hf : Frame w w') (hb : ∀ k, bal w' k = bal w k + db k) :
    total w' F m = total w F m + ∑ k ∈ F, when (mintOf w k = some m) (db k) := by
  unfold total
  rw [← Finset.sum_add_distrib]
  apply Finset.sum_congr rfl
  intro k _
  rw [hf.mintOf]
  by_cases h : mintOf w k = some m
  · rw [when_pos h, when_pos h, when_pos h, hb]
  · rw [when_neg h, when_neg h, when_neg h]; rfl

theorem Moved.conserved {signed : Pubkey → Bool} {tp src dst a : Pubkey} {x : UInt64}
    {w w' : World} (h : Moved signed tp src dst a x w w') {F : Finset Pubkey} (pm : Pubkey)
    (hs : src ∈ F) (hd : dst ∈ F) : Conserved F pm w w' := by
  refine ⟨fun m => ?_, fun m _ => h.supply m⟩
  rw [h.supply, Int.sub_self, when_zero, total_diff h.frame h.effect.bal]
  have : ∀ k ∈ F, when (mintOf w k = some m) (when (k = dst) x.toNat - when (k = src) x.toNat) =
      when (k = dst) (when (mintOf w dst = some m) x.toNat) -
      when (k = src) (when (mintOf w dst = some m) x.toNat) := by
    intro k _
    by_cases h1 : k = dst
    · subst h1
      by_cases h2 : k = src
      · rw [when_pos rfl, when_pos h2, when_pos h2, when_pos rfl, Int.sub_self, Int.sub_self,
          when_zero]
      · rw [when_pos rfl, when_neg h2, when_neg h2, when_pos rfl, Int.sub_zero, Int.sub_zero]
    · by_cases h2 : k = src
      · rw [when_neg h1, when_pos h2, when_neg h1, when_pos h2, h2, h.mints]
        by_cases h3 : mintOf w dst = some m
        · rw [when_pos h3, when_pos h3]
        · rw [when_neg h3, when_neg h3]; rfl
      · rw [when_neg h1, when_neg h2, when_neg h1, when_neg h2, Int.sub_self, when_zero]
  rw [Finset.sum_congr rfl this, Finset.sum_sub_distrib, sum_when_single F dst hd (fun _ => _),
    sum_when_single F src hs (fun _ => _)]
  omega

theorem Minted.conserved {signed : Pubkey → Bool} {tp mint dst a : Pubkey} {x : UInt64}
    {w w' : World} (h : Minted signed tp mint dst a x w w') {F : Finset Pubkey}
    (hd : dst ∈ F) : Conserved F mint w w' := by
  refine ⟨fun m => ?_, fun m hm => by rw [h.supply, when_neg hm]; omega⟩
  obtain ⟨d, _, hdat, hdm⟩ := h.dstTok
  have hmo : mintOf w dst = some mint := by
    unfold Spec.mintOf; rw [tokenAt_some.2 hdat, Option.map_some, hdm]
  rw [h.supply, total_diff h.frame h.effect.bal]
  have : ∀ k ∈ F, when (mintOf w k = some m) (when (k = dst) x.toNat) =
      when (k = dst) (when (m = mint) x.toNat) := by
    intro k _
    by_cases h1 : k = dst
    · rw [when_pos h1, when_pos h1, h1, hmo]
      by_cases h2 : m = mint
      · rw [when_pos h2, when_pos (by rw [h2])]
      · rw [when_neg h2, when_neg (fun hh => h2 (Option.some.inj hh).symm)]
    · rw [when_neg h1, when_neg h1, when_zero]
  rw [Finset.sum_congr rfl this, sum_when_single F dst hd (fun _ => _)]
  by_cases h2 : m = mint
  · rw [when_pos h2, when_pos h2]; omega
  · rw [when_neg h2, when_neg h2]

theorem Burnt.conserved {signed : Pubkey → Bool} {tp mint src a : Pubkey} {x : UInt64}
    {w w' : World} (h : Burnt signed tp src mint a x w w') {F : Finset Pubkey}
    (hd : src ∈ F) : Conserved F mint w w' := by
  refine ⟨fun m => ?_, fun m hm => by rw [h.supply, when_neg hm]; omega⟩
  obtain ⟨d, _, hdat, _, hdm, _⟩ := h.srcTok
  have hmo : mintOf w src = some mint := by
    unfold Spec.mintOf; rw [tokenAt_some.2 hdat, Option.map_some, hdm]
  rw [h.supply, total_diff h.frame h.effect.bal]
  have : ∀ k ∈ F, when (mintOf w k = some m) (- when (k = src) x.toNat) =
      when (k = src) (- when (m = mint) x.toNat) := by
    intro k _
    by_cases h1 : k = src
    · rw [when_pos h1, when_pos h1, h1, hmo]
      by_cases h2 : m = mint
      · rw [when_pos h2, when_pos (by rw [h2])]
      · rw [when_neg h2, when_neg (fun hh => h2 (Option.some.inj hh).symm)]; rfl
    · rw [when_neg h1, when_neg h1, Int.neg_zero, when_zero]
  rw [Finset.sum_congr rfl this, sum_when_single F src hd (fun _ => _)]
  by_cases h2 : m = mint
  · rw [when_pos h2, when_pos h2]; omega
  · rw [when_neg h2, when_neg h2]; omega

/-! ### Authorisation -/

theorem Spec.Spender.back {w w' : World} (hf : Frame w w') {k a : Pubkey} (h : Spender w' k a) :
    Spender w k a := by
  obtain ⟨t', ht', hor⟩ := h
  obtain ⟨t, ht, _, ho, _, _, hdel⟩ := hf.token_inv (tokenAt_some.1 ht')
  refine ⟨t, tokenAt_some.2 ht, ?_⟩
  rcases hor with h1 | h1
  · exact Or.inl (by rw [← ho]; exact h1)
  · rcases hdel with h2 | h2
    · exact Or.inr (by rw [← h2]; exact h1)
    · rw [h2] at h1; cases h1

theorem Moved.debit {signed : Pubkey → Bool} {tp src dst a : Pubkey} {x : UInt64} {w w' : World}
    (h : Moved signed tp src dst a x w w') {k : Pubkey} (hk : Spec.bal w' k < Spec.bal w k) :
    k = src ∧ Spender w k a := by
  rw [h.bal] at hk
  have h1 : k = src := by
    by_contra hc
    rw [when_neg hc] at hk
    have := when_nonneg (c := k = dst) (Int.natCast_nonneg x.toNat)
    omega
  obtain ⟨s, _, hs, _, ho⟩ := h.srcTok
  exact ⟨h1, s, by rw [h1]; exact tokenAt_some.2 hs, ho.symm⟩

theorem Minted.debit {signed : Pubkey → Bool} {tp mint dst a : Pubkey} {x : UInt64} {w w' : World}
    (h : Minted signed tp mint dst a x w w') {k : Pubkey} (hk : Spec.bal w' k < Spec.bal w k) : False := by
  rw [h.bal] at hk
  have := when_nonneg (c := k = dst) (Int.natCast_nonneg x.toNat)
  omega

theorem Burnt.debit {signed : Pubkey → Bool} {tp src mint a : Pubkey} {x : UInt64} {w w' : World}
    (h : Burnt signed tp src mint a x w w') {k : Pubkey} (hk : Spec.bal w' k < Spec.bal w k) :
    k = src ∧ Spender w k a := by
  rw [h.bal] at hk
  have h1 : k = src := by
    by_contra hc
    rw [when_neg hc] at hk
    omega
  obtain ⟨s, _, hs, _, _, ho⟩ := h.srcTok
  exact ⟨h1, s, by rw [h1]; exact tokenAt_some.2 hs, ho.symm⟩

namespace Processor

/-- A guarded transfer, as one `Moved` or nothing. -/
theorem ifPos_ok {env : Env} {signers : List Pubkey} {swap tp src dst a : Pubkey}
    {bump : UInt8} {x : UInt64} {w w' : World}
    (h : tokenTransferIfPos env signers swap tp src dst a bump x w = .ok w') :
    (x.toNat = 0 ∧ w' = w) ∨ (tp = env.tokenProgramId ∧ ∃ signed pda,
      env.createPda swap bump = some pda ∧ (a ∈ signers ∨ a = pda) ∧
      Moved signed env.tokenProgramId src dst a x w w') := by
  rcases tokenTransferIfPos_ok h with h | ⟨_, h⟩
  · exact Or.inl h
  · exact Or.inr (tokenTransfer_ok h)

theorem ifPos_effect {env : Env} {signers : List Pubkey} {swap tp src dst a : Pubkey}
    {bump : UInt8} {x : UInt64} {w w' : World}
    (h : tokenTransferIfPos env signers swap tp src dst a bump x w = .ok w') :
    Effect w w' (fun k => when (k = dst) x.toNat - when (k = src) x.toNat) (fun _ => 0)
      [src, dst] := by
  rcases ifPos_ok h with ⟨h0, rfl⟩ | ⟨_, _, _, _, _, hm⟩
  · refine (Effect.refl w').mono (fun k => ?_) (fun _ => rfl) (fun k hk => by cases hk)
    rw [h0]
    show 0 = when (k = dst) 0 - when (k = src) 0
    rw [when_zero, when_zero]
    rfl
  · exact hm.effect

theorem ifPos_conserved {env : Env} {signers : List Pubkey} {swap tp src dst a : Pubkey}
    {bump : UInt8} {x : UInt64} {w w' : World}
    (h : tokenTransferIfPos env signers swap tp src dst a bump x w = .ok w') {F : Finset Pubkey}
    (pm : Pubkey) (hs : src ∈ F) (hd : dst ∈ F) : Conserved F pm w w' := by
  rcases ifPos_ok h with ⟨_, rfl⟩ | ⟨_, _, _, _, _, hm⟩
  · exact Conserved.refl _ _ _
  · exact hm.conserved pm hs hd

theorem ifPos_debit {env : Env} {signers : List Pubkey} {swap tp src dst a : Pubkey}
    {bump : UInt8} {x : UInt64} {w w' : World}
    (h : tokenTransferIfPos env signers swap tp src dst a bump x w = .ok w') {k : Pubkey}
    (hk : Spec.bal w' k < Spec.bal w k) : k = src ∧ Spender w k a := by
  rcases ifPos_ok h with ⟨_, rfl⟩ | ⟨_, _, _, _, _, hm⟩
  · omega
  · exact hm.debit hk

end Processor
end Verif

