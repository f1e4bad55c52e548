import Verif.Lemmas.Chain

/-
Token-program calls made by anybody else are steps of the environment: the contract `EnvStep` is
met by the token program's transfers, mints and burns.
-/

namespace Verif
open Spec

variable {env : Env} {K : Pubkey → Prop}

theorem EnvStep.of_frame {w w' : World} (hf : Frame w w')
    (hp : ∀ k, (w k).owner = env.programId → w' k = w k)
    (hb : ∀ k, bal w' k < bal w k → ∃ s, Spender w k s ∧ ¬ IsPda env K s)
    (hm : ∀ k m, (w k).data = .mint m → supply w k < supply w' k →
      ∃ s, m.mint_authority = some s ∧ ¬ IsPda env K s) : EnvStep env K w w' := by
  refine ⟨fun k hk => Or.inl (hp k hk), fun k h1 h2 => absurd ((hf k).1.symm.trans h2) h1, ?_, ?_⟩
  · intro k t ho ht hx hd hc
    obtain ⟨t', a1, a2, a3, _, a5, a6⟩ := hf.token ht
    refine ⟨(hf k).1.trans ho, t', a1, a2, a3, ?_, a5.trans hc, ?_⟩
    · rcases a6 with a6 | a6
      · exact a6.trans hd
      · exact a6
    · rw [UInt64.le_iff_toNat_le]
      by_contra hlt
      have h1 := bal_token ht
      have h2 := bal_token a1
      obtain ⟨s, ⟨t2, ht2, hor⟩, hs⟩ := hb k (by omega)
      rw [tokenAt_some.2 ht] at ht2
      rw [← Option.some.inj ht2, hd] at hor
      rcases hor with e | e
      · exact hs (e ▸ hx)
      · cases e
  · intro k m x ho hmk hma hx
    obtain ⟨m', a1, a2, a3⟩ := hf.mint hmk
    refine ⟨(hf k).1.trans ho, m', a1, a2.trans hma, ?_, fun e => a3.trans e⟩
    rw [UInt64.le_iff_toNat_le]
    by_contra hlt
    have h1 := supply_mint hmk
    have h2 := supply_mint a1
    obtain ⟨s, e, hs⟩ := hm k m hmk (by omega)
    rw [hma] at e
    exact hs (Option.some.inj e ▸ hx)

theorem Moved.envStep (he : EnvOk env K) {signed : Pubkey → Bool} {src dst a : Pubkey} {x : UInt64}
    {w w' : World} (h : Moved signed env.tokenProgramId src dst a x w w') (ha : ¬ IsPda env K a) :
    EnvStep env K w w' := by
  refine EnvStep.of_frame h.frame (fun k hk => h.same k ?_ ?_)
    (fun k hk => ⟨a, (h.debit hk).2, ha⟩) (fun k m _ hk => by rw [h.supply] at hk; omega)
  · rintro rfl
    obtain ⟨_, ho, _⟩ := h.srcTok
    exact he.ids (hk.symm.trans ho)
  · rintro rfl
    obtain ⟨_, ho, _⟩ := h.dstTok
    exact he.ids (hk.symm.trans ho)

theorem Minted.envStep (he : EnvOk env K) {signed : Pubkey → Bool} {mint dst a : Pubkey} {x : UInt64}
    {w w' : World} (h : Minted signed env.tokenProgramId mint dst a x w w') (ha : ¬ IsPda env K a) :
    EnvStep env K w w' := by
  refine EnvStep.of_frame h.frame (fun k hk => h.same k ?_ ?_)
    (fun k hk => (h.debit hk).elim) (fun k m hd hk => ?_)
  · rintro rfl
    obtain ⟨_, ho, _⟩ := h.mintAcc
    exact he.ids (hk.symm.trans ho)
  · rintro rfl
    obtain ⟨_, ho, _⟩ := h.dstTok
    exact he.ids (hk.symm.trans ho)
  · have e : k = mint := by
      by_contra hc
      rw [h.supply, when_neg hc] at hk
      omega
    obtain ⟨m', _, h1, h2⟩ := h.mintAcc
    rw [← e, hd] at h1
    exact ⟨a, by rw [Data.mint.inj h1]; exact h2, ha⟩

theorem Burnt.envStep (he : EnvOk env K) {signed : Pubkey → Bool} {src mint a : Pubkey} {x : UInt64}
    {w w' : World} (h : Burnt signed env.tokenProgramId src mint a x w w') (ha : ¬ IsPda env K a) :
    EnvStep env K w w' := by
  refine EnvStep.of_frame h.frame (fun k hk => h.same k ?_ ?_)
    (fun k hk => ⟨a, (h.debit hk).2, ha⟩) (fun k m _ hk => ?_)
  · rintro rfl
    obtain ⟨_, ho, _⟩ := h.mintAcc
    exact he.ids (hk.symm.trans ho)
  · rintro rfl
    obtain ⟨_, ho, _⟩ := h.srcTok
    exact he.ids (hk.symm.trans ho)
  · rw [h.supply] at hk
    have := when_nonneg (c := k = mint) (Int.natCast_nonneg x.toNat)
    omega

end Verif
