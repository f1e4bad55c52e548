import Verif.Lemmas.EnvStep
import Verif.Spec.Outside

/-
Every step of `Outside` meets the contract `EnvStep`.
-/

namespace Verif
open Spec

variable {env : Env} {K : Pubkey → Prop} {sys : Pubkey}

namespace Token

theorem approves_plain {tp : Pubkey} {w : World} {signers : List Pubkey} {a : Pubkey}
    (ho : (w a).owner ≠ tp) (h : approves tp w signers a = true) : a ∈ signers := by
  unfold approves at h
  rw [if_neg ho] at h
  exact of_decide_eq_true h

theorem approves_not_pda {w : World} {signers : List Pubkey} {a : Pubkey}
    (hc : Clean env sys K w) (hst : sys ≠ env.tokenProgramId)
    (hs : ∀ x ∈ signers, ¬ IsPda env K x)
    (h : approves env.tokenProgramId w signers a = true) : ¬ IsPda env K a := fun hp =>
  hs a (approves_plain (by rw [hc a hp]; exact hst) h) hp

theorem validateOwner_ok {signed : Pubkey → Bool} {e a : Pubkey} {u : Unit}
    (h : validateOwner signed e a = .ok u) : e = a ∧ signed a = true := by
  unfold validateOwner at h
  rw [req_bind, req_ok] at h
  exact h

theorem uninitialized_ok {tp : Pubkey} {w : World} {k : Pubkey} {len flag : Nat} {u : Unit}
    (h : uninitialized tp w k len flag = .ok u) :
    (w k).owner = tp ∧ ∃ b, (w k).data = .raw b := by
  unfold uninitialized at h
  rw [req_bind] at h
  refine ⟨h.1, ?_⟩
  have h2 := h.2
  split at h2
  · rename_i b hb; exact ⟨b, hb⟩
  · cases h2

end Token

/-- Changing one account of the token program. -/
theorem EnvStep.of_set (he : EnvOk env K) {w : World} {k : Pubkey} {d : Data}
    (ho : (w k).owner = env.tokenProgramId)
    (ht : ∀ t, (w k).data = .token t → IsPda env K t.owner → t.delegate = none →
      t.close_authority = none → ∃ t', d = .token t' ∧ t'.mint = t.mint ∧ t'.owner = t.owner ∧
        t'.delegate = none ∧ t'.close_authority = none ∧ t.amount ≤ t'.amount)
    (hm : ∀ m x, (w k).data = .mint m → m.mint_authority = some x → IsPda env K x →
      ∃ m', d = .mint m' ∧ m'.mint_authority = some x ∧ m'.supply ≤ m.supply ∧
        (m.freeze_authority = none → m'.freeze_authority = none)) :
    EnvStep env K w (w.setData k d) := by
  have same : ∀ k', k' ≠ k → w.setData k d k' = w k' := fun k' h => if_neg h
  have at_k : (w.setData k d k).data = d := by rw [setData_data, if_pos rfl]
  refine ⟨?_, ?_, ?_, ?_⟩
  · intro k' hk'
    refine Or.inl (same k' ?_)
    rintro rfl
    exact he.ids (hk'.symm.trans ho)
  · intro k' h1 h2
    rw [setData_owner] at h2
    exact absurd h2 h1
  · intro k' t h1 h2 h3 h4 h5
    refine ⟨by rw [setData_owner]; exact h1, ?_⟩
    by_cases e : k' = k
    · rw [e] at h2 ⊢
      rw [at_k]
      exact ht t h2 h3 h4 h5
    · rw [same k' e]
      exact ⟨t, h2, rfl, rfl, h4, h5, UInt64.le_refl _⟩
  · intro k' m x h1 h2 h3 h4
    refine ⟨by rw [setData_owner]; exact h1, ?_⟩
    by_cases e : k' = k
    · rw [e] at h2 ⊢
      rw [at_k]
      exact hm m x h2 h3 h4
    · rw [same k' e]
      exact ⟨m, h2, h3, UInt64.le_refl _, id⟩

/-- Initialising an account of the token program that held neither tokens nor a mint. -/
theorem EnvStep.of_raw (he : EnvOk env K) {w : World} {k : Pubkey} {d : Data} {b : List UInt8}
    (ho : (w k).owner = env.tokenProgramId) (hb : (w k).data = .raw b) :
    EnvStep env K w (w.setData k d) :=
  EnvStep.of_set he ho (fun t h => by rw [hb] at h; cases h) (fun m x h => by rw [hb] at h; cases h)

/-- Changing an account that belongs neither to this program nor to the token program. -/
theorem EnvStep.of_foreign {w w' : World}
    (h : ∀ k, w' k = w k ∨ ((w k).owner ≠ env.programId ∧
      ((w k).owner = env.tokenProgramId → ∃ b, (w k).data = .raw b) ∧
      ((w' k).owner = env.programId → Zeros (w' k).data ∨ IdlData (w' k).data)) ∨
      ((w k).owner = env.programId ∧ env.programId ≠ env.tokenProgramId ∧
        (w' k).owner = env.programId ∧ IdlWritable (w k).data ∧ IdlData (w' k).data)) :
    EnvStep env K w w' := by
  refine ⟨?_, ?_, ?_, ?_⟩
  · intro k hk
    rcases h k with e | ⟨e, _⟩ | ⟨_, _, h1, h2, h3⟩
    · exact Or.inl e
    · exact absurd hk e
    · exact Or.inr ⟨h1, h2, h3⟩
  · intro k h1 h2
    rcases h k with e | ⟨_, _, e⟩ | ⟨e, _⟩
    · rw [e] at h2; exact absurd h2 h1
    · exact e h2
    · exact absurd e h1
  · intro k t h1 h2 h3 h4 h5
    rcases h k with e | ⟨_, e, _⟩ | ⟨e, hne, _⟩
    · rw [e]; exact ⟨h1, t, h2, rfl, rfl, h4, h5, UInt64.le_refl _⟩
    · obtain ⟨b, hb⟩ := e h1
      rw [hb] at h2; cases h2
    · exact absurd (e.symm.trans h1) hne
  · intro k m x h1 h2 h3 h4
    rcases h k with e | ⟨_, e, _⟩ | ⟨e, hne, _⟩
    · rw [e]; exact ⟨h1, m, h2, h3, UInt64.le_refl _, id⟩
    · obtain ⟨b, hb⟩ := e h1
      rw [hb] at h2; cases h2
    · exact absurd (e.symm.trans h1) hne

namespace Token

theorem setAuthority_envStep (he : EnvOk env K) {signed : Pubkey → Bool} {k a : Pubkey}
    {kind : AuthorityType} {new : Option Pubkey} {w w' : World}
    (hs : signed a = true → ¬ IsPda env K a)
    (h : setAuthority env.tokenProgramId signed k kind a new w = .ok w') :
    EnvStep env K w w' ∧ ∀ k', (w' k').owner = (w k').owner := by
  unfold setAuthority at h
  rw [req_bind] at h
  obtain ⟨ho, h⟩ := h
  split at h
  · rename_i t ht
    rw [req_bind] at h
    obtain ⟨_, h⟩ := h
    split at h
    · rw [Except_bind_ok] at h
      obtain ⟨u, hv, h⟩ := h
      rw [Except_bind_ok] at h
      obtain ⟨o, _, h⟩ := h
      cases h
      obtain ⟨e1, e2⟩ := validateOwner_ok hv
      refine ⟨EnvStep.of_set he ho (fun t1 h1 h2 => ?_) (fun m x h1 => ?_),
        fun k' => setData_owner _ _ _ _⟩
      · rw [ht] at h1; cases h1
        exact absurd (e1 ▸ h2) (hs e2)
      · rw [ht] at h1; cases h1
    · rw [Except_bind_ok] at h
      obtain ⟨u, hv, h⟩ := h
      cases h
      obtain ⟨e1, e2⟩ := validateOwner_ok hv
      refine ⟨EnvStep.of_set he ho (fun t1 h1 h2 _ h4 => ?_) (fun m x h1 => ?_),
        fun k' => setData_owner _ _ _ _⟩
      · rw [ht] at h1; cases h1
        rw [h4] at e1
        have e1 : t.owner = a := e1
        exact absurd (e1 ▸ h2) (hs e2)
      · rw [ht] at h1; cases h1
    · cases h
  · rename_i m hm
    split at h
    · rw [Except_bind_ok] at h
      obtain ⟨a', ha', h⟩ := h
      rw [Except_bind_ok] at h
      obtain ⟨u, hv, h⟩ := h
      cases h
      obtain ⟨e1, e2⟩ := validateOwner_ok hv
      rw [optErr_ok] at ha'
      refine ⟨EnvStep.of_set he ho (fun t1 h1 => ?_) (fun m1 x h1 h2 h3 => ?_),
        fun k' => setData_owner _ _ _ _⟩
      · rw [hm] at h1; cases h1
      · rw [hm] at h1; cases h1
        rw [ha'] at h2
        rw [← Option.some.inj h2, e1] at h3
        exact absurd h3 (hs e2)
    · rw [Except_bind_ok] at h
      obtain ⟨a', ha', h⟩ := h
      rw [Except_bind_ok] at h
      obtain ⟨u, hv, h⟩ := h
      cases h
      rw [optErr_ok] at ha'
      refine ⟨EnvStep.of_set he ho (fun t1 h1 => ?_) (fun m1 x h1 h2 h3 => ?_),
        fun k' => setData_owner _ _ _ _⟩
      · rw [hm] at h1; cases h1
      · rw [hm] at h1; cases h1
        refine ⟨_, rfl, h2, UInt64.le_refl _, fun e => ?_⟩
        rw [ha'] at e; cases e
    · cases h
  · cases h

theorem toggleFreeze_envStep (he : EnvOk env K) {signed : Pubkey → Bool} {k m a : Pubkey}
    {fr : Bool} {w w' : World}
    (h : toggleFreeze env.tokenProgramId signed k m a fr w = .ok w') :
    EnvStep env K w w' ∧ ∀ k', (w' k').owner = (w k').owner := by
  unfold toggleFreeze at h
  rw [Except_bind_ok] at h
  obtain ⟨t, ht, h⟩ := h
  rw [req_bind, req_bind] at h
  obtain ⟨_, _, h⟩ := h
  rw [Except_bind_ok] at h
  obtain ⟨m1, _, h⟩ := h
  rw [Except_bind_ok] at h
  obtain ⟨a1, _, h⟩ := h
  rw [Except_bind_ok] at h
  obtain ⟨u, _, h⟩ := h
  cases h
  rw [getToken_ok] at ht
  refine ⟨EnvStep.of_set he ht.1 (fun t1 h1 h2 h3 h4 => ?_) (fun m x h1 => ?_),
    fun k' => setData_owner _ _ _ _⟩
  · rw [ht.2] at h1; cases h1
    exact ⟨_, rfl, rfl, rfl, h3, h4, UInt64.le_refl _⟩
  · rw [ht.2] at h1; cases h1

theorem syncNative_ok {tp : Pubkey} {signers : List Pubkey} {k : Pubkey} {x : UInt64}
    {w w' : World} (h : (TokenInstr.syncNative k x).exec tp signers w = .ok w') :
    ∃ t, ((w k).owner = tp ∧ (w k).data = .token t) ∧ t.mint = nativeMint ∧ t.amount ≤ x ∧
      w' = w.setData k (.token { t with amount := x }) := by
  unfold TokenInstr.exec at h
  simp only [] at h
  rw [Except_bind_ok] at h
  obtain ⟨t, ht, h⟩ := h
  rw [req_bind, req_bind] at h
  obtain ⟨hm, hx, h⟩ := h
  cases h
  exact ⟨t, getToken_ok.1 ht, hm, hx, rfl⟩

/-- Every token-program instruction of others meets the contract. -/
theorem TokenInstr.envStep (he : EnvOk env K) (hst : sys ≠ env.tokenProgramId)
    {signers : List Pubkey} {i : TokenInstr} {w w' : World} (hc : Clean env sys K w)
    (hs : ∀ x ∈ signers, ¬ IsPda env K x) (h : i.exec env.tokenProgramId signers w = .ok w') :
    EnvStep env K w w' ∧ ∀ k, (w' k).owner = (w k).owner := by
  have hna : ∀ a, approves env.tokenProgramId w signers a = true → ¬ IsPda env K a :=
    fun a => approves_not_pda hc hst hs
  cases i with
  | initializeMint k a f =>
    unfold TokenInstr.exec at h
    simp only [] at h
    rw [Except_bind_ok] at h
    obtain ⟨u, hu, h⟩ := h
    cases h
    obtain ⟨ho, b, hb⟩ := uninitialized_ok hu
    exact ⟨EnvStep.of_raw he ho hb, fun k' => setData_owner _ _ _ _⟩
  | initializeAccount k m o =>
    unfold TokenInstr.exec at h
    simp only [] at h
    rw [Except_bind_ok] at h
    obtain ⟨u, hu, h⟩ := h
    rw [Except_bind_ok] at h
    obtain ⟨m1, _, h⟩ := h
    cases h
    obtain ⟨ho, b, hb⟩ := uninitialized_ok hu
    exact ⟨EnvStep.of_raw he ho hb, fun k' => setData_owner _ _ _ _⟩
  | initializeMultisig k m keys =>
    unfold TokenInstr.exec at h
    simp only [] at h
    rw [Except_bind_ok] at h
    obtain ⟨u, hu, h⟩ := h
    rw [req_bind] at h
    obtain ⟨_, h⟩ := h
    cases h
    obtain ⟨ho, b, hb⟩ := uninitialized_ok hu
    exact ⟨EnvStep.of_raw he ho hb, fun k' => setData_owner _ _ _ _⟩
  | transfer src dst a x =>
    have hm := transfer_ok h
    exact ⟨hm.envStep he (hna a hm.signed), fun k => (hm.frame k).1⟩
  | mintTo m dst a x =>
    have hm := mintTo_ok h
    exact ⟨hm.envStep he (hna a hm.signed), fun k => (hm.frame k).1⟩
  | burn src m a x =>
    have hm := burn_ok h
    exact ⟨hm.envStep he (hna a hm.signed), fun k => (hm.frame k).1⟩
  | approve src d a x =>
    unfold TokenInstr.exec at h
    simp only [] at h
    rw [Except_bind_ok] at h
    obtain ⟨t, ht, h⟩ := h
    rw [req_bind] at h
    obtain ⟨_, h⟩ := h
    rw [Except_bind_ok] at h
    obtain ⟨u, hv, h⟩ := h
    cases h
    rw [getToken_ok] at ht
    obtain ⟨e1, e2⟩ := validateOwner_ok hv
    refine ⟨EnvStep.of_set he ht.1 (fun t1 h1 h2 => ?_) (fun m x h1 => ?_),
      fun k' => setData_owner _ _ _ _⟩
    · rw [ht.2] at h1; cases h1
      exact absurd (e1 ▸ h2) (hna a e2)
    · rw [ht.2] at h1; cases h1
  | revoke src a =>
    unfold TokenInstr.exec at h
    simp only [] at h
    rw [Except_bind_ok] at h
    obtain ⟨t, ht, h⟩ := h
    rw [req_bind] at h
    obtain ⟨_, h⟩ := h
    rw [Except_bind_ok] at h
    obtain ⟨u, hv, h⟩ := h
    cases h
    rw [getToken_ok] at ht
    obtain ⟨e1, e2⟩ := validateOwner_ok hv
    refine ⟨EnvStep.of_set he ht.1 (fun t1 h1 h2 => ?_) (fun m x h1 => ?_),
      fun k' => setData_owner _ _ _ _⟩
    · rw [ht.2] at h1; cases h1
      exact absurd (e1 ▸ h2) (hna a e2)
    · rw [ht.2] at h1; cases h1
  | setAuthority k kind a new => exact setAuthority_envStep he (hna a) h
  | closeAccount k dst a =>
    unfold TokenInstr.exec at h
    simp only [] at h
    rw [req_bind] at h
    obtain ⟨_, h⟩ := h
    rw [Except_bind_ok] at h
    obtain ⟨t, ht, h⟩ := h
    rw [req_bind] at h
    obtain ⟨_, h⟩ := h
    rw [Except_bind_ok] at h
    obtain ⟨u, hv, h⟩ := h
    cases h
    rw [getToken_ok] at ht
    obtain ⟨e1, e2⟩ := validateOwner_ok hv
    refine ⟨EnvStep.of_set he ht.1 (fun t1 h1 h2 _ h4 => ?_) (fun m x h1 => ?_),
      fun k' => setData_owner _ _ _ _⟩
    · rw [ht.2] at h1; cases h1
      rw [h4] at e1
      have e1 : t.owner = a := e1
      exact absurd (e1 ▸ h2) (hna a e2)
    · rw [ht.2] at h1; cases h1
  | freezeAccount k m a => exact toggleFreeze_envStep he h
  | thawAccount k m a => exact toggleFreeze_envStep he h
  | syncNative k x =>
    obtain ⟨t, ht, hm, hx, rfl⟩ := syncNative_ok h
    refine ⟨EnvStep.of_set he ht.1 (fun t1 h1 h2 h3 h4 => ?_) (fun m x h1 => ?_),
      fun k' => setData_owner _ _ _ _⟩
    · rw [ht.2] at h1; cases h1
      exact ⟨_, rfl, rfl, rfl, h3, h4, hx⟩
    · rw [ht.2] at h1; cases h1

end Token

theorem set_same {w : World} {k k' : Pubkey} {a : Account} (h : k' ≠ k) : w.set k a k' = w k' :=
  if_neg h
theorem set_at {w : World} {k : Pubkey} {a : Account} : w.set k a k = a := if_pos rfl

/-- Every step of others meets the contract and leaves the derived addresses alone. -/
theorem Outside.envStep (he : EnvOk env K) (hst : sys ≠ env.tokenProgramId)
    (hsp : sys ≠ env.programId) {w w' : World} (hc : Clean env sys K w)
    (h : Outside env sys K w w') : EnvStep env K w w' ∧ Clean env sys K w' := by
  cases h with
  | token signers i hs h =>
    obtain ⟨h1, h2⟩ := Token.TokenInstr.envStep he hst hc hs h
    exact ⟨h1, fun x hx => (h2 x).trans (hc x hx)⟩
  | create k owner n hk ho h =>
    rw [h]
    refine ⟨EnvStep.of_foreign fun k' => ?_, fun x hx => ?_⟩
    · by_cases e : k' = k
      · rw [e, set_at]
        refine Or.inr (Or.inl ⟨by rw [ho]; exact hsp, fun h1 => ?_, fun _ => Or.inl ⟨n, rfl⟩⟩)
        exact absurd (ho.symm.trans h1) hst
      · exact Or.inl (set_same e)
    · have e : x ≠ k := fun e => hk (e ▸ hx)
      rw [set_same e]; exact hc x hx
  | system k d ho h =>
    rw [h]
    refine ⟨EnvStep.of_foreign fun k' => ?_, fun x hx => ?_⟩
    · by_cases e : k' = k
      · rw [e, set_at]
        refine Or.inr (Or.inl ⟨by rw [ho]; exact hsp, fun h1 => ?_, fun h1 => absurd h1 hsp⟩)
        exact absurd (ho.symm.trans h1) hst
      · exact Or.inl (set_same e)
    · by_cases e : x = k
      · rw [e, set_at]
      · rw [set_same e]; exact hc x hx
  | program p h1 h2 h3 h =>
    refine ⟨EnvStep.of_foreign fun k => ?_, fun x hx => ?_⟩
    · rcases h k with e | ⟨ho, hz⟩
      · exact Or.inl e
      · refine Or.inr (Or.inl ⟨by rw [ho]; exact h1, fun e => absurd (ho.symm.trans e) h2,
          fun e => ?_⟩)
        rcases hz with hz | hz
        · exact absurd (hz.symm.trans e) h1
        · exact Or.inl hz
    · rcases h x with e | ⟨ho, _⟩
      · rw [e]; exact hc x hx
      · exact absurd (ho.symm.trans (hc x hx)) h3
  | purge k ho hz h =>
    rw [h]
    refine ⟨EnvStep.of_foreign fun k' => ?_, fun x hx => ?_⟩
    · by_cases e : k' = k
      · rw [e, set_at]
        obtain ⟨n, hn⟩ := hz
        exact Or.inr (Or.inl ⟨ho, fun _ => ⟨_, hn⟩, fun h1 => absurd h1 hsp⟩)
      · exact Or.inl (set_same e)
    · by_cases e : x = k
      · rw [e, set_at]
      · rw [set_same e]; exact hc x hx
  | idl k t hk ho h =>
    rw [h]
    refine ⟨EnvStep.of_foreign fun k' => ?_, fun x hx => ?_⟩
    · by_cases e : k' = k
      · rw [e, set_at]
        rcases ho with ho | ⟨ho, hw⟩
        · refine Or.inr (Or.inl ⟨by rw [ho]; exact hsp, fun h1 => ?_, fun _ => Or.inr ⟨t, rfl⟩⟩)
          exact absurd (ho.symm.trans h1) hst
        · exact Or.inr (Or.inr ⟨ho, he.ids, rfl, hw, t, rfl⟩)
      · exact Or.inl (set_same e)
    · have e : x ≠ k := fun e => hk (e ▸ hx)
      rw [set_same e]; exact hc x hx

/-- The program's instructions leave the owners of all accounts alone. -/
theorem exec_owner {signers : List Pubkey} {i : Instr} {w w' : World}
    (h : exec env signers i w = .ok w') (k : Pubkey) : (w' k).owner = (w k).owner := by
  rcases exec_frame h with ⟨a, f, c, hi⟩ | hf
  · obtain ⟨w1, hf, hw, ho, _⟩ := init_shape hi h
    by_cases e : k = a.swap
    · rw [e]; exact ho
    · rw [hw k e]; exact (hf k).1
  · exact (hf k).1

theorem Move.step (he : EnvOk env K) (hst : sys ≠ env.tokenProgramId)
    (hsp : sys ≠ env.programId) {w w' : World} (hc : Clean env sys K w)
    (h : Move env sys K w w') : Step env K w w' ∧ Clean env sys K w' := by
  cases h with
  | instr signers i hk hs h =>
    exact ⟨.instr signers i hk hs h, fun x hx => (exec_owner h x).trans (hc x hx)⟩
  | outside h =>
    obtain ⟨h1, h2⟩ := h.envStep he hst hsp hc
    exact ⟨.other h1, h2⟩

end Verif
