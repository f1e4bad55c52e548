import Verif.Lemmas.Consent
import Verif.Spec.Freeze

/-
Lemmas for C86: freezing takes the freeze authority.
-/

namespace Verif
open Spec Processor Props

variable {env : Env} {sys : Pubkey} {K S : Pubkey → Prop}

/-- Between `w` and `w'` nothing is frozen or thawed in a mint whose freeze authority, if any, is
among `S`. -/
def Calm (env : Env) (S : Pubkey → Prop) (m : Pubkey) (w w' : World) : Prop :=
  ∀ f, Freezer env w m f → (∀ a, f = some a → S a) →
    Freezer env w' m f ∧ ∀ x, (FrozenAt env w' x m → FrozenAt env w x m) ∧
      (m ≠ Token.nativeMint → FrozenAt env w x m → 0 < bal w x → w' x = w x)

theorem Calm.of_same {m : Pubkey} {w w' : World}
    (h1 : ∀ x, (w x).owner = env.tokenProgramId → ¬ Zeros (w x).data → w' x = w x)
    (h2 : ∀ x t, (w' x).owner = env.tokenProgramId → (w' x).data = .token t → w' x = w x) :
    Calm env S m w w' := by
  intro f ⟨a1, q, a2, a3⟩ _
  have hm := h1 m a1 (by rw [a2]; rintro ⟨n, e⟩; cases e)
  refine ⟨⟨by rw [hm]; exact a1, q, by rw [hm]; exact a2, a3⟩, fun x => ⟨?_, ?_⟩⟩
  · rintro ⟨b1, t, b2, b3⟩
    have e := h2 x t b1 b2
    rw [e] at b1 b2
    exact ⟨b1, t, b2, b3⟩
  · rintro _ ⟨b1, t, b2, _⟩ _
    exact h1 x b1 (by rw [b2]; rintro ⟨n, e⟩; cases e)

theorem Calm.refl (m : Pubkey) (w : World) : Calm env S m w w :=
  .of_same (fun _ _ _ => rfl) fun _ _ _ _ => rfl

theorem Calm.trans {m : Pubkey} {a b c : World} (h1 : Calm env S m a b) (h2 : Calm env S m b c) :
    Calm env S m a c := by
  intro f hf hs
  obtain ⟨g1, g2⟩ := h1 f hf hs
  obtain ⟨k1, k2⟩ := h2 f g1 hs
  refine ⟨k1, fun x => ⟨fun h => (g2 x).1 ((k2 x).1 h), fun hm h hb => ?_⟩⟩
  have e := (g2 x).2 hm h hb
  obtain ⟨b1, t, b2, b3⟩ := h
  have e2 := (k2 x).2 hm ⟨by rw [e]; exact b1, t, by rw [e]; exact b2, b3⟩ (by
    rw [bal_token (show (b x).data = .token t by rw [e]; exact b2)]
    rw [bal_token b2] at hb
    exact hb)
  exact e2.trans e

/-- Changing one account. -/
theorem Calm.of_set {m : Pubkey} {w : World} {k : Pubkey} {d : Data}
    (h1 : ∀ q, (w k).data = .mint q → ∃ q', d = .mint q' ∧
      (q'.freeze_authority = q.freeze_authority ∨ ∃ a, q.freeze_authority = some a ∧ ¬ S a))
    (h2 : ∀ t', d = .token t' → t'.frozen = true → ∃ t, (w k).data = .token t ∧
      t.frozen = true ∧ t.mint = t'.mint)
    (h3 : ∀ t, (w k).data = .token t → t.frozen = true →
      t.mint = Token.nativeMint ∨ t.amount.toNat = 0) :
    Calm env S m w (w.setData k d) := by
  intro f ⟨a1, q, a2, a3⟩ hs
  refine ⟨⟨by rw [setData_owner]; exact a1, ?_⟩, fun x => ⟨?_, ?_⟩⟩
  · rw [setData_data]
    split
    · rename_i e
      rw [e] at a2
      obtain ⟨q', b1, b2⟩ := h1 q a2
      rcases b2 with b2 | ⟨a, b2, b3⟩
      · exact ⟨q', b1, b2.trans a3⟩
      · exact absurd (hs a (a3.symm.trans b2)) b3
    · exact ⟨q, a2, a3⟩
  · rintro ⟨b1, t, b2, b3, b4⟩
    rw [setData_owner] at b1
    rw [setData_data] at b2
    split at b2
    · rename_i e
      obtain ⟨t0, c1, c2, c3⟩ := h2 t b2 b4
      exact ⟨b1, t0, by rw [e]; exact c1, c3.trans b3, c2⟩
    · exact ⟨b1, t, b2, b3, b4⟩
  · rintro hm ⟨b1, t, b2, b3, b4⟩ hb
    by_cases e : x = k
    · rw [e] at b2 hb
      rcases h3 t b2 b4 with h0 | h0
      · exact absurd (b3.symm.trans h0) hm
      · rw [bal_token b2, h0] at hb
        exact absurd hb (by decide)
    · exact if_neg e

/-- Rewriting a token account that is not frozen without freezing it. -/
theorem Calm.of_token {m : Pubkey} {w : World} {k : Pubkey} {t t' : TokenAccount}
    (h : (w k).data = .token t) (hf : t.frozen = false) (hf' : t'.frozen = false) :
    Calm env S m w (w.setData k (.token t')) := by
  refine .of_set (fun q e => by rw [h] at e; cases e) (fun u e e' => ?_) (fun u e e' => ?_)
  · cases e; rw [hf'] at e'; cases e'
  · rw [h] at e; cases e; rw [hf] at e'; cases e'

theorem Calm.of_mint {m : Pubkey} {w : World} {k : Pubkey} {q q' : Mint}
    (h : (w k).data = .mint q) (hf : q'.freeze_authority = q.freeze_authority ∨
      ∃ a, q.freeze_authority = some a ∧ ¬ S a) :
    Calm env S m w (w.setData k (.mint q')) := by
  refine .of_set (fun u e => ?_) (fun u e => by cases e) (fun u e => by rw [h] at e; cases e)
  rw [h] at e; cases e
  exact ⟨q', rfl, hf⟩

/-- Filling an empty account. -/
theorem Calm.of_raw {m : Pubkey} {w : World} {k : Pubkey} {b : List UInt8} {d : Data}
    (h : (w k).data = .raw b) (hd : ∀ t, d = .token t → t.frozen = false) :
    Calm env S m w (w.setData k d) := by
  refine .of_set (fun q e => by rw [h] at e; cases e) (fun u e e' => ?_)
    (fun u e => by rw [h] at e; cases e)
  rw [hd u e] at e'; cases e'

namespace Token

theorem authorize_frozen {signed : Pubkey → Bool} {t s : TokenAccount} {a : Pubkey} {x : UInt64}
    (h : authorize signed t a x = .ok s) : s.frozen = t.frozen := by
  unfold authorize at h
  split at h
  · rw [req_bind] at h
    obtain ⟨_, h⟩ := h
    rw [Except_bind_ok] at h
    obtain ⟨r, _, h⟩ := h
    cases h; rfl
  · rw [Except_bind_ok] at h
    obtain ⟨u, _, h⟩ := h
    cases h; rfl

theorem transfer_calm {signed : Pubkey → Bool} {src dst a m : Pubkey} {x : UInt64}
    {w w' : World} (h : transfer env.tokenProgramId signed src dst a x w = .ok w') :
    Calm env S m w w' := by
  unfold transfer at h
  rw [Except_bind_ok] at h
  obtain ⟨s, hs, h⟩ := h
  rw [Except_bind_ok] at h
  obtain ⟨d, hd, h⟩ := h
  rw [req_bind, req_bind, req_bind] at h
  obtain ⟨hf, _, _, h⟩ := h
  rw [Except_bind_ok] at h
  obtain ⟨s', hau, h⟩ := h
  rw [getToken_ok] at hs hd
  split at h
  · cases h; exact .refl m w
  · rename_i hne
    rw [Except_bind_ok] at h
    obtain ⟨sa, hsa, h⟩ := h
    rw [Except_bind_ok] at h
    obtain ⟨da, hda, h⟩ := h
    cases h
    refine Calm.trans (.of_token hs.2 hf.1 ?_) (.of_token (t := d) ?_ hf.2 hf.2)
    · exact (authorize_frozen hau).trans hf.1
    · rw [setData_data, if_neg (fun e => hne e.symm)]; exact hd.2

theorem mintTo_calm {signed : Pubkey → Bool} {mint dst a m : Pubkey} {x : UInt64}
    {w w' : World} (h : mintTo env.tokenProgramId signed mint dst a x w = .ok w') :
    Calm env S m w w' := by
  unfold mintTo at h
  rw [Except_bind_ok] at h
  obtain ⟨d, hd, h⟩ := h
  rw [req_bind, req_bind] at h
  obtain ⟨hf, _, h⟩ := h
  rw [Except_bind_ok] at h
  obtain ⟨q, hq, h⟩ := h
  rw [Except_bind_ok] at h
  obtain ⟨au, _, h⟩ := h
  rw [Except_bind_ok] at h
  obtain ⟨_, _, h⟩ := h
  rw [Except_bind_ok] at h
  obtain ⟨da, _, h⟩ := h
  rw [Except_bind_ok] at h
  obtain ⟨ms, _, h⟩ := h
  cases h
  rw [getToken_ok] at hd
  rw [getMint_ok] at hq
  refine Calm.trans (.of_token (t' := { d with amount := da }) hd.2 hf hf)
    (.of_mint (q := q) (q' := { q with supply := ms }) ?_ (Or.inl rfl))
  rw [setData_data]
  split
  · rename_i e
    rw [e, hd.2] at hq
    cases hq.2
  · exact hq.2

theorem burn_calm {signed : Pubkey → Bool} {src mint a m : Pubkey} {x : UInt64}
    {w w' : World} (h : burn env.tokenProgramId signed src mint a x w = .ok w') :
    Calm env S m w w' := by
  unfold burn at h
  rw [Except_bind_ok] at h
  obtain ⟨s, hs, h⟩ := h
  rw [Except_bind_ok] at h
  obtain ⟨q, hq, h⟩ := h
  rw [req_bind, req_bind, req_bind] at h
  obtain ⟨hf, _, _, h⟩ := h
  rw [Except_bind_ok] at h
  obtain ⟨s', hau, h⟩ := h
  rw [Except_bind_ok] at h
  obtain ⟨sa, _, h⟩ := h
  rw [Except_bind_ok] at h
  obtain ⟨ms, _, h⟩ := h
  cases h
  rw [getToken_ok] at hs
  rw [getMint_ok] at hq
  refine Calm.trans
    (.of_token (t' := { s' with amount := sa }) hs.2 hf ((authorize_frozen hau).trans hf))
    (.of_mint (q := q) (q' := { q with supply := ms }) ?_ (Or.inl rfl))
  rw [setData_data]
  split
  · rename_i e
    rw [e, hs.2] at hq
    cases hq.2
  · exact hq.2

theorem setAuthority_calm {signed : Pubkey → Bool} {k a m : Pubkey}
    {kind : AuthorityType} {new : Option Pubkey} {w w' : World}
    (hs : signed a = true → ¬ S a)
    (h : setAuthority env.tokenProgramId signed k kind a new w = .ok w') :
    Calm env S m w w' := by
  unfold setAuthority at h
  rw [req_bind] at h
  obtain ⟨_, h⟩ := h
  split at h
  · rename_i t ht
    rw [req_bind] at h
    obtain ⟨hf, h⟩ := h
    split at h
    · rw [Except_bind_ok] at h
      obtain ⟨u, _, h⟩ := h
      rw [Except_bind_ok] at h
      obtain ⟨o, _, h⟩ := h
      cases h
      exact .of_token ht hf hf
    · rw [Except_bind_ok] at h
      obtain ⟨u, _, h⟩ := h
      cases h
      exact .of_token ht hf hf
    · cases h
  · rename_i q hq
    split at h
    · rw [Except_bind_ok] at h
      obtain ⟨a', _, h⟩ := h
      rw [Except_bind_ok] at h
      obtain ⟨u, _, h⟩ := h
      cases h
      exact .of_mint hq (Or.inl rfl)
    · rw [Except_bind_ok] at h
      obtain ⟨a', ha', h⟩ := h
      rw [Except_bind_ok] at h
      obtain ⟨u, hv, h⟩ := h
      cases h
      obtain ⟨e1, e2⟩ := validateOwner_ok hv
      rw [optErr_ok] at ha'
      exact .of_mint hq (Or.inr ⟨a', ha', e1 ▸ hs e2⟩)
    · cases h
  · cases h

theorem toggleFreeze_calm {signed : Pubkey → Bool} {k mint a m : Pubkey}
    {fr : Bool} {w w' : World} (hs : signed a = true → ¬ S a)
    (h : toggleFreeze env.tokenProgramId signed k mint a fr w = .ok w') :
    Calm env S m w w' := by
  unfold toggleFreeze at h
  rw [Except_bind_ok] at h
  obtain ⟨t, ht, h⟩ := h
  rw [req_bind, req_bind] at h
  obtain ⟨_, hm, h⟩ := h
  rw [Except_bind_ok] at h
  obtain ⟨q, hq, h⟩ := h
  rw [Except_bind_ok] at h
  obtain ⟨a1, ha1, h⟩ := h
  rw [Except_bind_ok] at h
  obtain ⟨u, hv, h⟩ := h
  cases h
  rw [getToken_ok] at ht
  rw [getMint_ok] at hq
  rw [optErr_ok] at ha1
  obtain ⟨e1, e2⟩ := validateOwner_ok hv
  intro f ⟨b1, q', b2, b3⟩ hf
  by_cases e : m = mint
  · rw [e, hq.2] at b2
    cases b2
    rw [ha1] at b3
    exact absurd (e1 ▸ hf a1 b3.symm) (hs e2)
  · refine ⟨⟨by rw [setData_owner]; exact b1, q', ?_, b3⟩, fun x => ⟨?_, ?_⟩⟩
    · rw [setData_data]
      split
      · rename_i e'
        rw [e', ht.2] at b2; cases b2
      · exact b2
    · rintro ⟨c1, t1, c2, c3⟩
      rw [setData_owner] at c1
      rw [setData_data] at c2
      split at c2
      · cases c2
        exact absurd (c3.1.symm.trans hm) e
      · exact ⟨c1, t1, c2, c3⟩
    · rintro _ ⟨c1, t1, c2, c3⟩ _
      by_cases e' : x = k
      · rw [e', ht.2] at c2
        cases c2
        exact absurd (c3.1.symm.trans hm) e
      · exact if_neg e'

theorem setAuthority_frame {signed : Pubkey → Bool} {k a : Pubkey}
    {kind : AuthorityType} {new : Option Pubkey} {w w' : World}
    (h : setAuthority env.tokenProgramId signed k kind a new w = .ok w') :
    (∃ d, w' = w.setData k d) ∧ (w k).owner = env.tokenProgramId ∧ ¬ Zeros (w k).data := by
  unfold setAuthority at h
  rw [req_bind] at h
  obtain ⟨ho, h⟩ := h
  split at h
  · rename_i t ht
    refine ⟨?_, ho, by rw [ht]; rintro ⟨n, e⟩; cases e⟩
    rw [req_bind] at h
    obtain ⟨hf, h⟩ := h
    split at h
    · rw [Except_bind_ok] at h
      obtain ⟨u, _, h⟩ := h
      rw [Except_bind_ok] at h
      obtain ⟨o, _, h⟩ := h
      cases h
      exact ⟨_, rfl⟩
    · rw [Except_bind_ok] at h
      obtain ⟨u, _, h⟩ := h
      cases h
      exact ⟨_, rfl⟩
    · cases h
  · rename_i q hq
    refine ⟨?_, ho, by rw [hq]; rintro ⟨n, e⟩; cases e⟩
    split at h
    · rw [Except_bind_ok] at h
      obtain ⟨a', _, h⟩ := h
      rw [Except_bind_ok] at h
      obtain ⟨u, _, h⟩ := h
      cases h
      exact ⟨_, rfl⟩
    · rw [Except_bind_ok] at h
      obtain ⟨a', ha', h⟩ := h
      rw [Except_bind_ok] at h
      obtain ⟨u, hv, h⟩ := h
      cases h
      exact ⟨_, rfl⟩
    · cases h
  · cases h

theorem toggleFreeze_frame {signed : Pubkey → Bool} {k mint a : Pubkey}
    {fr : Bool} {w w' : World}
    (h : toggleFreeze env.tokenProgramId signed k mint a fr w = .ok w') :
    (∃ d, w' = w.setData k d) ∧ (w k).owner = env.tokenProgramId ∧ ¬ Zeros (w k).data := by
  unfold toggleFreeze at h
  rw [Except_bind_ok] at h
  obtain ⟨t, ht, h⟩ := h
  rw [req_bind, req_bind] at h
  obtain ⟨_, hm, h⟩ := h
  rw [Except_bind_ok] at h
  obtain ⟨q, hq, h⟩ := h
  rw [Except_bind_ok] at h
  obtain ⟨a1, ha1, h⟩ := h
  rw [Except_bind_ok] at h
  obtain ⟨u, hv, h⟩ := h
  cases h
  rw [getToken_ok] at ht
  exact ⟨⟨_, rfl⟩, ht.1, by rw [ht.2]; rintro ⟨n, e⟩; cases e⟩

/-- A step that changes one account only, and not that. -/
theorem frame_same {w w' : World} {k : Pubkey}
    (h : (∃ d, w' = w.setData k d) ∧ (w k).owner = env.tokenProgramId ∧ ¬ Zeros (w k).data)
    (hs : ∀ k, (w k).owner = env.tokenProgramId → ¬ Zeros (w k).data → w' k = w k) : w' = w := by
  obtain ⟨⟨d, e⟩, h1, h2⟩ := h
  funext j
  by_cases ej : j = k
  · rw [ej]; exact hs k h1 h2
  · rw [e]; exact if_neg ej

theorem TokenInstr.calm {signers : List Pubkey} {i : TokenInstr} {w w' : World} {m : Pubkey}
    (hn : (∀ x, S x → ¬ Consents env w signers x) ∨
      ∀ k, (w k).owner = env.tokenProgramId → ¬ Zeros (w k).data → w' k = w k)
    (h : i.exec env.tokenProgramId signers w = .ok w') : Calm env S m w w' := by
  cases i with
  | initializeMint k a f =>
    unfold TokenInstr.exec at h
    simp only [] at h
    rw [Except_bind_ok] at h
    obtain ⟨u, hu, h⟩ := h
    cases h
    obtain ⟨ho, b, hb⟩ := uninitialized_ok hu
    exact .of_raw hb fun t e => by cases e
  | initializeAccount k m o =>
    unfold TokenInstr.exec at h
    simp only [] at h
    rw [Except_bind_ok] at h
    obtain ⟨u, hu, h⟩ := h
    rw [Except_bind_ok] at h
    obtain ⟨m1, _, h⟩ := h
    cases h
    obtain ⟨ho, b, hb⟩ := uninitialized_ok hu
    exact .of_raw hb fun t e => by cases e; rfl
  | initializeMultisig k m keys =>
    unfold TokenInstr.exec at h
    simp only [] at h
    rw [Except_bind_ok] at h
    obtain ⟨u, hu, h⟩ := h
    rw [req_bind] at h
    obtain ⟨_, h⟩ := h
    cases h
    obtain ⟨ho, b, hb⟩ := uninitialized_ok hu
    exact .of_raw hb fun t e => by cases e
  | transfer src dst a x => exact transfer_calm h
  | mintTo m dst a x => exact mintTo_calm h
  | burn src m a x => exact burn_calm h
  | approve src d a x =>
    unfold TokenInstr.exec at h
    simp only [] at h
    rw [Except_bind_ok] at h
    obtain ⟨t, ht, h⟩ := h
    rw [req_bind] at h
    obtain ⟨hf, h⟩ := h
    rw [Except_bind_ok] at h
    obtain ⟨u, _, h⟩ := h
    cases h
    rw [getToken_ok] at ht
    exact .of_token ht.2 hf hf
  | revoke src a =>
    unfold TokenInstr.exec at h
    simp only [] at h
    rw [Except_bind_ok] at h
    obtain ⟨t, ht, h⟩ := h
    rw [req_bind] at h
    obtain ⟨hf, h⟩ := h
    rw [Except_bind_ok] at h
    obtain ⟨u, _, h⟩ := h
    cases h
    rw [getToken_ok] at ht
    exact .of_token ht.2 hf hf
  | setAuthority k kind a new =>
    rcases hn with hn | hn
    · exact setAuthority_calm (fun ha hs => hn a hs (approves_consents ha)) h
    · rw [frame_same (setAuthority_frame h) hn]; exact .refl _ _
  | closeAccount k dst a =>
    unfold TokenInstr.exec at h
    simp only [] at h
    rw [req_bind] at h
    obtain ⟨_, h⟩ := h
    rw [Except_bind_ok] at h
    obtain ⟨t, ht, h⟩ := h
    rw [req_bind] at h
    obtain ⟨h0, h⟩ := h
    rw [Except_bind_ok] at h
    obtain ⟨u, _, h⟩ := h
    cases h
    rw [getToken_ok] at ht
    refine .of_set (fun q e => by rw [ht.2] at e; cases e) (fun u e => by cases e) fun u e _ => ?_
    rw [ht.2] at e
    cases e
    exact h0.imp id fun h0 => by rw [h0]; rfl
  | freezeAccount k m a =>
    rcases hn with hn | hn
    · exact toggleFreeze_calm (fun ha hs => hn a hs (approves_consents ha)) h
    · rw [frame_same (toggleFreeze_frame h) hn]; exact .refl _ _
  | thawAccount k m a =>
    rcases hn with hn | hn
    · exact toggleFreeze_calm (fun ha hs => hn a hs (approves_consents ha)) h
    · rw [frame_same (toggleFreeze_frame h) hn]; exact .refl _ _
  | syncNative k x =>
    obtain ⟨t, ht, hm, hx, rfl⟩ := syncNative_ok h
    refine .of_set (fun q e => by rw [ht.2] at e; cases e) (fun u e e' => ?_) fun u e _ => ?_
    · cases e
      exact ⟨t, ht.2, e', rfl⟩
    · rw [ht.2] at e
      cases e
      exact Or.inl hm

end Token

/-! ### Instructions of this program -/

theorem tokenTransfer_calm {signers : List Pubkey} {swap tp src dst a m : Pubkey} {bump : UInt8}
    {x : UInt64} {w w' : World}
    (h : tokenTransfer env signers swap tp src dst a bump x w = .ok w') : Calm env S m w w' := by
  unfold tokenTransfer at h
  rw [req_bind] at h
  obtain ⟨_, h⟩ := h
  rw [Except_bind_ok] at h
  obtain ⟨f, _, h⟩ := h
  exact Token.transfer_calm h

theorem transferIfPos_calm {signers : List Pubkey} {swap tp src dst a m : Pubkey} {bump : UInt8}
    {x : UInt64} {w w' : World}
    (h : tokenTransferIfPos env signers swap tp src dst a bump x w = .ok w') :
    Calm env S m w w' := by
  rcases tokenTransferIfPos_ok h with ⟨_, rfl⟩ | ⟨_, h⟩
  · exact .refl _ _
  · exact tokenTransfer_calm h

theorem tokenBurn_calm {signers : List Pubkey} {swap tp src q a m : Pubkey} {bump : UInt8}
    {x : UInt64} {w w' : World} (h : tokenBurn env signers swap tp src q a bump x w = .ok w') :
    Calm env S m w w' := by
  unfold tokenBurn at h
  rw [req_bind] at h
  obtain ⟨_, h⟩ := h
  rw [Except_bind_ok] at h
  obtain ⟨f, _, h⟩ := h
  exact Token.burn_calm h

theorem tokenMintTo_calm {signers : List Pubkey} {swap tp q dst a m : Pubkey} {bump : UInt8}
    {x : UInt64} {w w' : World} (h : tokenMintTo env signers swap tp q dst a bump x w = .ok w') :
    Calm env S m w w' := by
  unfold tokenMintTo at h
  rw [req_bind] at h
  obtain ⟨_, h⟩ := h
  rw [Except_bind_ok] at h
  obtain ⟨f, _, h⟩ := h
  exact Token.mintTo_calm h

theorem init_calm {signers : List Pubkey} {f : Fees} {c : Curve} {a : InitAccounts}
    {w w' : World} {m : Pubkey} (h : processInitialize env signers f c a w = .ok w') :
    Calm env S m w w' := by
  obtain ⟨tA, tB, fa, de, pm, bytes, old, w1, r⟩ := processInitialize_ok h
  refine (tokenMintTo_calm r.mint).trans ?_
  rw [r.write]
  exact .of_raw r.oldIs fun t e => by cases e

theorem exec_calm {signers : List Pubkey} {i : Instr} {w w' : World} {m : Pubkey}
    (h : exec env signers i w = .ok w') : Calm env S m w w' := by
  cases i with
  | initConstantPrice a f p => exact init_calm (exec_init (.price a f p) h).2
  | initLinearPrice a c => exact init_calm (exec_init (.linear a c) h).2
  | swap a x y =>
    obtain ⟨hs, hp⟩ := exec_swap h
    obtain ⟨ts, src, dst, pm, r, pt, amtIn, amtOut, w1, w2, run⟩ := processSwap_ok hp
    refine (tokenTransfer_calm run.pay).trans (Calm.trans ?_ (tokenTransfer_calm run.payOut))
    rcases ownerFeeStep_none run.mint with ⟨_, rfl⟩ | ⟨amt, _, _, h⟩
    · exact .refl _ _
    · exact tokenMintTo_calm h
  | depositAll a x y z =>
    obtain ⟨hs, hp⟩ := exec_depositAll h
    obtain ⟨ts, tA, tB, pm, r, amtA, amtB, amtP, w1, w2, run⟩ := processDepositAll_ok hp
    exact ((tokenTransfer_calm run.payA).trans (tokenTransfer_calm run.payB)).trans
      (tokenMintTo_calm run.mint)
  | withdrawAll a x y z =>
    obtain ⟨hs, hp⟩ := exec_withdrawAll h
    obtain ⟨ts, tA, tB, pm, fee, burnt, r, amtA, amtB, w1, w2, w3, run⟩ := processWithdrawAll_ok hp
    exact (((transferIfPos_calm run.payFee).trans (tokenBurn_calm run.burn)).trans
      (transferIfPos_calm run.payA)).trans (transferIfPos_calm run.payB)
  | depositSingle a x y =>
    obtain ⟨hs, hp⟩ := exec_depositSingle h
    obtain ⟨ts, src, tA, tB, dir, pm, amtP, w1, run⟩ := processDepositSingle_ok hp
    exact (tokenTransfer_calm run.pay).trans (tokenMintTo_calm run.mint)
  | withdrawSingle a x y =>
    obtain ⟨hs, hp⟩ := exec_withdrawSingle h
    obtain ⟨ts, dst, tA, tB, dir, pm, fee, burnt, w1, w2, run⟩ := processWithdrawSingle_ok hp
    exact ((transferIfPos_calm run.payFee).trans (tokenBurn_calm run.burn)).trans
      (tokenTransfer_calm run.pay)

theorem Spec.Without.calm (hst : sys ≠ env.tokenProgramId) {w w' : World} {m : Pubkey}
    (h : Without env sys K S w w') : Calm env S m w w' := by
  cases h with
  | instr signers i hk hs hn h => exact exec_calm h
  | token signers i hs hn h => exact Token.TokenInstr.calm (.inl hn) h
  | other h hn =>
    cases h with
    | token signers i hs h => exact Token.TokenInstr.calm (.inr hn) h
    | create k owner n hk ho h =>
      refine .of_same hn fun x t h1 h2 => ?_
      rw [h] at h2 ⊢
      by_cases e : x = k
      · rw [e, set_at] at h2; cases h2
      · exact set_same e
    | system k d ho h =>
      refine .of_same hn fun x t h1 h2 => ?_
      rw [h] at h1 ⊢
      by_cases e : x = k
      · rw [e, set_at] at h1; exact absurd h1 hst
      · exact set_same e
    | program p h1 h2 h3 h =>
      refine .of_same hn fun x t e1 e2 => ?_
      rcases h x with e | ⟨e, e' | ⟨n, e'⟩⟩
      · exact e
      · exact absurd (e'.symm.trans e1) h2
      · rw [e'] at e2; cases e2
    | purge k ho hz h =>
      refine .of_same hn fun x t h1 h2 => ?_
      rw [h] at h2 ⊢
      by_cases e : x = k
      · rw [e, set_at] at h2; cases h2
      · exact set_same e
    | idl k t hk ho h =>
      refine .of_same hn fun x t h1 h2 => ?_
      rw [h] at h2 ⊢
      by_cases e : x = k
      · rw [e, set_at] at h2; cases h2
      · exact set_same e

theorem calm_all (hst : sys ≠ env.tokenProgramId) {w w' : World} {m : Pubkey}
    (h : Relation.ReflTransGen (Without env sys K S) w w') : Calm env S m w w' := by
  induction h with
  | refl => exact .refl _ _
  | tail _ h ih => exact ih.trans (h.calm hst)

end Verif
