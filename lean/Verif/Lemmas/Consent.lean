import Verif.Spec.Consent
import Verif.Lemmas.Supply

/-
Steps that the owner of a token account does not approve of (C77).
-/

namespace Verif
open Spec Processor Props

variable {env : Env} {K : Pubkey → Prop} {sys : Pubkey} {S : Pubkey → Prop}

def TokenAccount.allow (t : TokenAccount) : Nat :=
  if t.delegate.isSome then t.delegated_amount.toNat else 0

/-- What a step owes to the token account at `k`, if those in `S` do not approve. -/
def Respects (env : Env) (S : Pubkey → Prop) (k : Pubkey) (w w' : World) : Prop :=
  ∀ t, (w k).owner = env.tokenProgramId → (w k).data = .token t → S t.owner →
    t.close_authority = none →
    (w' k).owner = env.tokenProgramId ∧ ∃ t', (w' k).data = .token t' ∧ t'.mint = t.mint ∧
      t'.owner = t.owner ∧ t'.close_authority = none ∧
      (t'.delegate = t.delegate ∨ t'.delegate = none) ∧ t'.allow ≤ t.allow ∧
      t.amount.toNat + t'.allow ≤ t'.amount.toNat + t.allow ∧
      ((∀ d, t.delegate = some d → S d) → t.amount.toNat ≤ t'.amount.toNat ∧
        t'.delegate = t.delegate ∧ t'.allow = t.allow)

theorem Respects.of_same {k : Pubkey} {w w' : World}
    (h : (w k).owner = env.tokenProgramId → (∃ t, (w k).data = .token t) → w' k = w k) :
    Respects env S k w w' := by
  intro t h1 h2 h3 h4
  rw [h h1 ⟨t, h2⟩]
  exact ⟨h1, t, h2, rfl, rfl, h4, Or.inl rfl, le_rfl, le_rfl, fun _ => ⟨le_rfl, rfl, rfl⟩⟩

theorem Respects.refl (k : Pubkey) (w : World) : Respects env S k w w := .of_same fun _ _ => rfl

theorem Respects.trans {k : Pubkey} {a b c : World} (h1 : Respects env S k a b)
    (h2 : Respects env S k b c) : Respects env S k a c := by
  intro t e1 e2 e3 e4
  obtain ⟨f1, u, f2, f3, f4, f5, f6, f7, f8, f9⟩ := h1 t e1 e2 e3 e4
  obtain ⟨g1, v, g2, g3, g4, g5, g6, g7, g8, g9⟩ := h2 u f1 f2 (by rw [f4]; exact e3) f5
  refine ⟨g1, v, g2, g3.trans f3, g4.trans f4, g5, ?_, g7.trans f7, by omega, fun h => ?_⟩
  · rcases g6 with g6 | g6
    · rw [g6]; exact f6
    · exact Or.inr g6
  · obtain ⟨a1, a2, a3⟩ := f9 h
    obtain ⟨b1, b2, b3⟩ := g9 (fun d hd => h d (a2 ▸ hd))
    exact ⟨a1.trans b1, b2.trans a2, b3.trans a3⟩

/-- Changing one account. -/
theorem Respects.of_set {w : World} {k k' : Pubkey} {d : Data}
    (h : ∀ t, (w k').owner = env.tokenProgramId → (w k').data = .token t → S t.owner →
      t.close_authority = none →
      ∃ t', d = .token t' ∧ t'.mint = t.mint ∧ t'.owner = t.owner ∧ t'.close_authority = none ∧
        (t'.delegate = t.delegate ∨ t'.delegate = none) ∧ t'.allow ≤ t.allow ∧
        t.amount.toNat + t'.allow ≤ t'.amount.toNat + t.allow ∧
        ((∀ d, t.delegate = some d → S d) → t.amount.toNat ≤ t'.amount.toNat ∧
        t'.delegate = t.delegate ∧ t'.allow = t.allow)) :
    Respects env S k w (w.setData k' d) := by
  by_cases e : k = k'
  · rw [e]
    intro t h1 h2 h3 h4
    refine ⟨by rw [setData_owner]; exact h1, ?_⟩
    rw [setData_data, if_pos rfl]
    exact h t h1 h2 h3 h4
  · exact .of_same fun _ _ => if_neg e

namespace Token

theorem authorize_respects {signed : Pubkey → Bool} {t s : TokenAccount} {a : Pubkey} {x : UInt64}
    (h : authorize signed t a x = .ok s) (hn : signed a = true → ¬ S a) (ho : S t.owner) :
    s.mint = t.mint ∧ s.owner = t.owner ∧ s.close_authority = t.close_authority ∧
    (s.delegate = t.delegate ∨ s.delegate = none) ∧ s.allow + x.toNat = t.allow ∧
    ¬ (∀ d, t.delegate = some d → S d) := by
  unfold authorize at h
  split at h
  · rename_i hd
    rw [req_bind] at h
    obtain ⟨hs, h⟩ := h
    rw [Except_bind_ok] at h
    obtain ⟨r, hr, h⟩ := h
    cases h
    rw [optErr_ok] at hr
    obtain ⟨h1, h2⟩ := checkedSub64_some.1 hr
    refine ⟨rfl, rfl, rfl, ?_, ?_, fun h => hn hs (h a hd)⟩
    · show (if r = 0 then none else t.delegate) = t.delegate ∨ _
      split
      · exact Or.inr rfl
      · exact Or.inl rfl
    · unfold TokenAccount.allow
      simp only [hd]
      by_cases e : r = 0
      · rw [if_pos e]
        rw [e] at h2
        have : (0 : UInt64).toNat = 0 := rfl
        simp only [Option.isSome_none, Option.isSome_some, Bool.false_eq_true, if_false, if_true]
        omega
      · rw [if_neg e]
        simp only [Option.isSome_some, if_true]
        omega
  · rw [Except_bind_ok] at h
    obtain ⟨u, hv, _⟩ := h
    obtain ⟨e1, e2⟩ := validateOwner_ok hv
    exact absurd (e1 ▸ ho) (hn e2)

theorem transfer_respects {signed : Pubkey → Bool} {src dst a k : Pubkey} {x : UInt64}
    {w w' : World} (h : transfer env.tokenProgramId signed src dst a x w = .ok w')
    (hn : signed a = true → ¬ S a) : Respects env S k w w' := by
  unfold transfer at h
  rw [Except_bind_ok] at h
  obtain ⟨s, hs, h⟩ := h
  rw [Except_bind_ok] at h
  obtain ⟨d, hd, h⟩ := h
  rw [req_bind, req_bind, req_bind] at h
  obtain ⟨_, _, _, h⟩ := h
  rw [Except_bind_ok] at h
  obtain ⟨s', hau, h⟩ := h
  rw [getToken_ok] at hs hd
  split at h
  · cases h; exact .refl k w
  · rename_i hne
    rw [Except_bind_ok] at h
    obtain ⟨sa, hsa, h⟩ := h
    rw [Except_bind_ok] at h
    obtain ⟨da, hda, h⟩ := h
    cases h
    rw [optErr_ok] at hsa hda
    obtain ⟨u1, u2⟩ := checkedSub64_some.1 hsa
    have u3 := checkedAdd64_some.1 hda
    refine Respects.trans (.of_set fun t _ h2 h3 h4 => ?_) (.of_set fun t _ h2 h3 h4 => ?_)
    · rw [hs.2] at h2
      cases h2
      obtain ⟨a1, a2, a3, a4, a5, a6⟩ := authorize_respects hau hn h3
      refine ⟨_, rfl, a1, a2, a3.trans h4, a4, ?_, ?_, fun h => absurd h a6⟩
      · show s'.allow ≤ _
        omega
      · show _ + s'.allow ≤ sa.toNat + _
        omega
    · rw [setData_data, if_neg (fun e => hne e.symm), hd.2] at h2
      cases h2
      refine ⟨_, rfl, rfl, rfl, h4, Or.inl rfl, le_rfl, ?_, fun _ => ⟨?_, rfl, rfl⟩⟩
      · show d.amount.toNat + d.allow ≤ da.toNat + d.allow
        omega
      · show d.amount.toNat ≤ da.toNat
        omega

theorem mintTo_respects {signed : Pubkey → Bool} {mint dst a k : Pubkey} {x : UInt64}
    {w w' : World} (h : mintTo env.tokenProgramId signed mint dst a x w = .ok w') :
    Respects env S k w w' := by
  unfold mintTo at h
  rw [Except_bind_ok] at h
  obtain ⟨d, hd, h⟩ := h
  rw [req_bind, req_bind] at h
  obtain ⟨_, _, h⟩ := h
  rw [Except_bind_ok] at h
  obtain ⟨m, hm, h⟩ := h
  rw [Except_bind_ok] at h
  obtain ⟨au, _, h⟩ := h
  rw [Except_bind_ok] at h
  obtain ⟨_, _, h⟩ := h
  rw [Except_bind_ok] at h
  obtain ⟨da, hda, h⟩ := h
  rw [Except_bind_ok] at h
  obtain ⟨ms, _, h⟩ := h
  cases h
  rw [getToken_ok] at hd
  rw [getMint_ok] at hm
  rw [optErr_ok] at hda
  have u3 := checkedAdd64_some.1 hda
  refine Respects.trans (.of_set fun t _ h2 h3 h4 => ?_) (.of_set fun t _ h2 h3 h4 => ?_)
  · rw [hd.2] at h2
    cases h2
    refine ⟨_, rfl, rfl, rfl, h4, Or.inl rfl, le_rfl, ?_, fun _ => ⟨?_, rfl, rfl⟩⟩
    · show d.amount.toNat + d.allow ≤ da.toNat + d.allow
      omega
    · show d.amount.toNat ≤ da.toNat
      omega
  · rw [setData_data] at h2
    split at h2
    · rename_i e
      rw [e, hd.2] at hm
      cases hm.2
    · rw [hm.2] at h2; cases h2

theorem burn_respects {signed : Pubkey → Bool} {src mint a k : Pubkey} {x : UInt64}
    {w w' : World} (h : burn env.tokenProgramId signed src mint a x w = .ok w')
    (hn : signed a = true → ¬ S a) : Respects env S k w w' := by
  unfold burn at h
  rw [Except_bind_ok] at h
  obtain ⟨s, hs, h⟩ := h
  rw [Except_bind_ok] at h
  obtain ⟨m, hm, h⟩ := h
  rw [req_bind, req_bind, req_bind] at h
  obtain ⟨_, _, _, h⟩ := h
  rw [Except_bind_ok] at h
  obtain ⟨s', hau, h⟩ := h
  rw [Except_bind_ok] at h
  obtain ⟨sa, hsa, h⟩ := h
  rw [Except_bind_ok] at h
  obtain ⟨ms, _, h⟩ := h
  cases h
  rw [getToken_ok] at hs
  rw [getMint_ok] at hm
  rw [optErr_ok] at hsa
  obtain ⟨u1, u2⟩ := checkedSub64_some.1 hsa
  refine Respects.trans (.of_set fun t _ h2 h3 h4 => ?_) (.of_set fun t _ h2 h3 h4 => ?_)
  · rw [hs.2] at h2
    cases h2
    obtain ⟨a1, a2, a3, a4, a5, a6⟩ := authorize_respects hau hn h3
    refine ⟨_, rfl, a1, a2, a3.trans h4, a4, ?_, ?_, fun h => absurd h a6⟩
    · show s'.allow ≤ _
      omega
    · show _ + s'.allow ≤ sa.toNat + _
      omega
  · rw [setData_data] at h2
    split at h2
    · rename_i e
      rw [e, hs.2] at hm
      cases hm.2
    · rw [hm.2] at h2; cases h2

theorem setAuthority_respects {signed : Pubkey → Bool} {k a k' : Pubkey}
    {kind : AuthorityType} {new : Option Pubkey} {w w' : World}
    (hs : signed a = true → ¬ S a)
    (h : setAuthority env.tokenProgramId signed k kind a new w = .ok w') :
    Respects env S k' w w' := by
  unfold setAuthority at h
  rw [req_bind] at h
  obtain ⟨ho, h⟩ := h
  split at h
  · rename_i t ht
    rw [req_bind] at h
    obtain ⟨_, h⟩ := h
    split at h
    · rw [Except_bind_ok] at h
      obtain ⟨u, hv, h⟩ := h
      rw [Except_bind_ok] at h
      obtain ⟨o, _, h⟩ := h
      cases h
      obtain ⟨e1, e2⟩ := validateOwner_ok hv
      refine .of_set fun t1 _ h1 h2 => ?_
      rw [ht] at h1; cases h1
      exact absurd (e1 ▸ h2) (hs e2)
    · rw [Except_bind_ok] at h
      obtain ⟨u, hv, h⟩ := h
      cases h
      obtain ⟨e1, e2⟩ := validateOwner_ok hv
      refine .of_set fun t1 _ h1 h2 h4 => ?_
      rw [ht] at h1; cases h1
      rw [h4] at e1
      have e1 : t.owner = a := e1
      exact absurd (e1 ▸ h2) (hs e2)
    · cases h
  · rename_i m hm
    split at h
    · rw [Except_bind_ok] at h
      obtain ⟨a', ha', h⟩ := h
      rw [Except_bind_ok] at h
      obtain ⟨u, hv, h⟩ := h
      cases h
      exact .of_set fun t1 _ h1 => by rw [hm] at h1; cases h1
    · rw [Except_bind_ok] at h
      obtain ⟨a', ha', h⟩ := h
      rw [Except_bind_ok] at h
      obtain ⟨u, hv, h⟩ := h
      cases h
      exact .of_set fun t1 _ h1 => by rw [hm] at h1; cases h1
    · cases h
  · cases h

theorem toggleFreeze_respects {signed : Pubkey → Bool} {k m a k' : Pubkey}
    {fr : Bool} {w w' : World}
    (h : toggleFreeze env.tokenProgramId signed k m a fr w = .ok w') :
    Respects env S k' w w' := by
  unfold toggleFreeze at h
  rw [Except_bind_ok] at h
  obtain ⟨t, ht, h⟩ := h
  rw [req_bind, req_bind] at h
  obtain ⟨_, _, h⟩ := h
  rw [Except_bind_ok] at h
  obtain ⟨m1, _, h⟩ := h
  rw [Except_bind_ok] at h
  obtain ⟨a1, _, h⟩ := h
  rw [Except_bind_ok] at h
  obtain ⟨u, _, h⟩ := h
  cases h
  rw [getToken_ok] at ht
  refine .of_set fun t1 _ h1 h2 h4 => ?_
  rw [ht.2] at h1; cases h1
  exact ⟨_, rfl, rfl, rfl, h4, Or.inl rfl, le_rfl, le_rfl, fun _ => ⟨le_rfl, rfl, rfl⟩⟩

/-- `approves` is consent. -/
theorem approves_consents {w : World} {signers : List Pubkey} {a : Pubkey}
    (h : approves env.tokenProgramId w signers a = true) : Consents env w signers a := by
  unfold approves at h
  split at h
  · rename_i ho
    split at h
    · rename_i b hb
      split at h
      · rename_i hl
        rw [Bool.and_eq_true, decide_eq_true_eq, decide_eq_true_eq] at h
        refine Or.inl ⟨b, ⟨ho, hb, hl⟩, ((List.range (State.byteAt b 1).toNat).filter fun i =>
          decide (State.keyAt b (3 + 32 * i) ∈ signers)).toFinset, ?_, fun i hi => ?_⟩
        · rw [List.toFinset_card_of_nodup (List.nodup_range.filter _)]
          exact h.2
        · rw [List.mem_toFinset, List.mem_filter, List.mem_range, decide_eq_true_eq] at hi
          exact hi
      · rename_i hl
        exact Or.inr ⟨fun ⟨b', _, h2, h3⟩ => by rw [hb] at h2; cases h2; exact hl h3,
          of_decide_eq_true h⟩
    · rename_i hb
      exact Or.inr ⟨fun ⟨b', _, h2, _⟩ => hb b' h2, of_decide_eq_true h⟩
  · rename_i ho
    exact Or.inr ⟨fun ⟨b', h1, _⟩ => ho h1, of_decide_eq_true h⟩

theorem raw_respects {k k' : Pubkey} {d : Data} {w : World} {b : List UInt8}
    (hb : (w k).data = .raw b) : Respects env S k' w (w.setData k d) :=
  .of_set fun t1 _ h1 => by rw [hb] at h1; cases h1

theorem TokenInstr.respects {signers : List Pubkey} {i : TokenInstr} {w w' : World} {k : Pubkey}
    (hn : ∀ x, S x → ¬ Consents env w signers x)
    (h : i.exec env.tokenProgramId signers w = .ok w') : Respects env S k w w' := by
  have hna : ∀ a, approves env.tokenProgramId w signers a = true → ¬ S a :=
    fun a ha hs => hn a hs (approves_consents ha)
  cases i with
  | initializeMint k a f =>
    unfold TokenInstr.exec at h
    simp only [] at h
    rw [Except_bind_ok] at h
    obtain ⟨u, hu, h⟩ := h
    cases h
    obtain ⟨ho, b, hb⟩ := uninitialized_ok hu
    exact raw_respects hb
  | initializeAccount k m o =>
    unfold TokenInstr.exec at h
    simp only [] at h
    rw [Except_bind_ok] at h
    obtain ⟨u, hu, h⟩ := h
    rw [Except_bind_ok] at h
    obtain ⟨m1, _, h⟩ := h
    cases h
    obtain ⟨ho, b, hb⟩ := uninitialized_ok hu
    exact raw_respects hb
  | initializeMultisig k m keys =>
    unfold TokenInstr.exec at h
    simp only [] at h
    rw [Except_bind_ok] at h
    obtain ⟨u, hu, h⟩ := h
    rw [req_bind] at h
    obtain ⟨_, h⟩ := h
    cases h
    obtain ⟨ho, b, hb⟩ := uninitialized_ok hu
    exact raw_respects hb
  | transfer src dst a x => exact transfer_respects h (hna a)
  | mintTo m dst a x => exact mintTo_respects h
  | burn src m a x => exact burn_respects h (hna a)
  | approve src d a x =>
    unfold TokenInstr.exec at h
    simp only [] at h
    rw [Except_bind_ok] at h
    obtain ⟨t, ht, h⟩ := h
    rw [req_bind] at h
    obtain ⟨_, h⟩ := h
    rw [Except_bind_ok] at h
    obtain ⟨u, hv, h⟩ := h
    cases h
    rw [getToken_ok] at ht
    obtain ⟨e1, e2⟩ := validateOwner_ok hv
    refine .of_set fun t1 _ h1 h2 => ?_
    rw [ht.2] at h1; cases h1
    exact absurd (e1 ▸ h2) (hna a e2)
  | revoke src a =>
    unfold TokenInstr.exec at h
    simp only [] at h
    rw [Except_bind_ok] at h
    obtain ⟨t, ht, h⟩ := h
    rw [req_bind] at h
    obtain ⟨_, h⟩ := h
    rw [Except_bind_ok] at h
    obtain ⟨u, hv, h⟩ := h
    cases h
    rw [getToken_ok] at ht
    obtain ⟨e1, e2⟩ := validateOwner_ok hv
    refine .of_set fun t1 _ h1 h2 => ?_
    rw [ht.2] at h1; cases h1
    exact absurd (e1 ▸ h2) (hna a e2)
  | setAuthority k kind a new => exact setAuthority_respects (hna a) h
  | closeAccount k dst a =>
    unfold TokenInstr.exec at h
    simp only [] at h
    rw [req_bind] at h
    obtain ⟨_, h⟩ := h
    rw [Except_bind_ok] at h
    obtain ⟨t, ht, h⟩ := h
    rw [req_bind] at h
    obtain ⟨_, h⟩ := h
    rw [Except_bind_ok] at h
    obtain ⟨u, hv, h⟩ := h
    cases h
    rw [getToken_ok] at ht
    obtain ⟨e1, e2⟩ := validateOwner_ok hv
    refine .of_set fun t1 _ h1 h2 h4 => ?_
    rw [ht.2] at h1; cases h1
    rw [h4] at e1
    have e1 : t.owner = a := e1
    exact absurd (e1 ▸ h2) (hna a e2)
  | freezeAccount k m a => exact toggleFreeze_respects h
  | thawAccount k m a => exact toggleFreeze_respects h
  | syncNative k x =>
    obtain ⟨t, ht, hm, hx, rfl⟩ := syncNative_ok h
    refine .of_set fun t1 _ h1 h2 h4 => ?_
    rw [ht.2] at h1; cases h1
    have hx := UInt64.le_iff_toNat_le.1 hx
    exact ⟨_, rfl, rfl, rfl, h4, Or.inl rfl, le_rfl, by
      show t.amount.toNat + t.allow ≤ x.toNat + t.allow
      omega, fun _ => ⟨hx, rfl, rfl⟩⟩

end Token

/-! ### Instructions of this program -/

theorem tokenTransfer_respects {signers : List Pubkey} {swap tp src dst a k : Pubkey} {bump : UInt8} {x : UInt64}
    {w w' : World} (hk : K swap) (hS : ∀ x, S x → ¬ IsPda env K x) (hn : ∀ x ∈ signers, ¬ S x)
    (h : tokenTransfer env signers swap tp src dst a bump x w = .ok w') :
    Respects env S k w w' := by
  unfold tokenTransfer at h
  rw [req_bind] at h
  obtain ⟨_, h⟩ := h
  rw [Except_bind_ok] at h
  obtain ⟨f, hf, h⟩ := h
  obtain ⟨pda, hp, hs⟩ := cpiSigned_ok hf
  refine Token.transfer_respects h fun e => ?_
  rcases (hs a).1 e with e | rfl
  · exact hn a e
  · exact fun hs => hS _ hs ⟨swap, bump, hk, hp⟩

theorem transferIfPos_respects {signers : List Pubkey} {swap tp src dst a k : Pubkey} {bump : UInt8}
    {x : UInt64} {w w' : World} (hk : K swap) (hS : ∀ x, S x → ¬ IsPda env K x)
    (hn : ∀ x ∈ signers, ¬ S x)
    (h : tokenTransferIfPos env signers swap tp src dst a bump x w = .ok w') :
    Respects env S k w w' := by
  rcases tokenTransferIfPos_ok h with ⟨_, rfl⟩ | ⟨_, h⟩
  · exact .refl _ _
  · exact tokenTransfer_respects hk hS hn h

theorem tokenBurn_respects {signers : List Pubkey} {swap tp src m a k : Pubkey} {bump : UInt8} {x : UInt64}
    {w w' : World} (hk : K swap) (hS : ∀ x, S x → ¬ IsPda env K x) (hn : ∀ x ∈ signers, ¬ S x)
    (h : tokenBurn env signers swap tp src m a bump x w = .ok w') :
    Respects env S k w w' := by
  unfold tokenBurn at h
  rw [req_bind] at h
  obtain ⟨_, h⟩ := h
  rw [Except_bind_ok] at h
  obtain ⟨f, hf, h⟩ := h
  obtain ⟨pda, hp, hs⟩ := cpiSigned_ok hf
  refine Token.burn_respects h fun e => ?_
  rcases (hs a).1 e with e | rfl
  · exact hn a e
  · exact fun hs => hS _ hs ⟨swap, bump, hk, hp⟩

theorem tokenMintTo_respects {signers : List Pubkey} {swap tp m dst a k : Pubkey} {bump : UInt8} {x : UInt64}
    {w w' : World} (h : tokenMintTo env signers swap tp m dst a bump x w = .ok w') :
    Respects env S k w w' := by
  unfold tokenMintTo at h
  rw [req_bind] at h
  obtain ⟨_, h⟩ := h
  rw [Except_bind_ok] at h
  obtain ⟨f, hf, h⟩ := h
  exact Token.mintTo_respects h

theorem init_respects {signers : List Pubkey} {f : Fees} {c : Curve} {a : InitAccounts}
    {w w' : World} {k : Pubkey} (h : processInitialize env signers f c a w = .ok w') :
    Respects env S k w w' := by
  obtain ⟨tA, tB, fa, de, pm, bytes, old, w1, r⟩ := processInitialize_ok h
  refine (tokenMintTo_respects r.mint).trans ?_
  rw [r.write]
  exact .of_set fun t _ h1 => by rw [r.oldIs] at h1; cases h1

theorem exec_respects {signers : List Pubkey} {i : Instr} {w w' : World} {k : Pubkey}
    (hk : K i.pool) (hS : ∀ x, S x → ¬ IsPda env K x) (hn : ∀ x ∈ signers, ¬ S x)
    (h : exec env signers i w = .ok w') : Respects env S k w w' := by
  cases i with
  | initConstantPrice a f p => exact init_respects (exec_init (.price a f p) h).2
  | initLinearPrice a c => exact init_respects (exec_init (.linear a c) h).2
  | swap a x y =>
    obtain ⟨hs, hp⟩ := exec_swap h
    obtain ⟨ts, src, dst, pm, r, pt, amtIn, amtOut, w1, w2, run⟩ := processSwap_ok hp
    refine (tokenTransfer_respects hk hS hn run.pay).trans (Respects.trans ?_ (tokenTransfer_respects hk hS hn run.payOut))
    rcases ownerFeeStep_none run.mint with ⟨_, rfl⟩ | ⟨amt, _, _, h⟩
    · exact .refl _ _
    · exact tokenMintTo_respects h
  | depositAll a x y z =>
    obtain ⟨hs, hp⟩ := exec_depositAll h
    obtain ⟨ts, tA, tB, pm, r, amtA, amtB, amtP, w1, w2, run⟩ := processDepositAll_ok hp
    exact ((tokenTransfer_respects hk hS hn run.payA).trans (tokenTransfer_respects hk hS hn run.payB)).trans (tokenMintTo_respects run.mint)
  | withdrawAll a x y z =>
    obtain ⟨hs, hp⟩ := exec_withdrawAll h
    obtain ⟨ts, tA, tB, pm, fee, burnt, r, amtA, amtB, w1, w2, w3, run⟩ := processWithdrawAll_ok hp
    exact (((transferIfPos_respects hk hS hn run.payFee).trans (tokenBurn_respects hk hS hn run.burn)).trans
      (transferIfPos_respects hk hS hn run.payA)).trans (transferIfPos_respects hk hS hn run.payB)
  | depositSingle a x y =>
    obtain ⟨hs, hp⟩ := exec_depositSingle h
    obtain ⟨ts, src, tA, tB, dir, pm, amtP, w1, run⟩ := processDepositSingle_ok hp
    exact (tokenTransfer_respects hk hS hn run.pay).trans (tokenMintTo_respects run.mint)
  | withdrawSingle a x y =>
    obtain ⟨hs, hp⟩ := exec_withdrawSingle h
    obtain ⟨ts, dst, tA, tB, dir, pm, fee, burnt, w1, w2, run⟩ := processWithdrawSingle_ok hp
    exact ((transferIfPos_respects hk hS hn run.payFee).trans (tokenBurn_respects hk hS hn run.burn)).trans
      (tokenTransfer_respects hk hS hn run.pay)

theorem Spec.Without.respects (hS : ∀ x, S x → ¬ IsPda env K x) {w w' : World} {k : Pubkey}
    (h : Without env sys K S w w') : Respects env S k w w' := by
  cases h with
  | instr signers i hk hs hn h => exact exec_respects hk hS hn h
  | token signers i hs hn h => exact Token.TokenInstr.respects hn h
  | other h hn => exact .of_same fun h1 ⟨t, h2⟩ => hn k h1 (by rw [h2]; rintro ⟨n, e⟩; cases e)

theorem respects_all (hS : ∀ x, S x → ¬ IsPda env K x) {w w' : World} {k : Pubkey}
    (h : Relation.ReflTransGen (Without env sys K S) w w') : Respects env S k w w' := by
  induction h with
  | refl => exact .refl _ _
  | tail _ h ih => exact ih.trans (h.respects hS)

/-! ### Multisigs -/

namespace Token

theorem byte_zeros (n i : Nat) : State.byteAt (List.replicate n 0) i = 0 := by
  unfold State.byteAt
  rw [List.getD_eq_getElem?_getD, List.getElem?_replicate]
  split <;> rfl

theorem setData_ne {w : World} {k j : Pubkey} {d : Data} (h : j ≠ k) : w.setData k d j = w j :=
  if_neg h

theorem setData_raw_ne {w : World} {k x : Pubkey} {d : Data} {b : List UInt8}
    (hx : (w x).data = .raw b) (hk : ∀ b', (w k).data ≠ .raw b') : w.setData k d x = w x :=
  setData_ne (by rintro rfl; exact hk b hx)

theorem uninitialized_raw {tp : Pubkey} {w : World} {k : Pubkey} {len flag : Nat} {u : Unit}
    (h : uninitialized tp w k len flag = .ok u) :
    ∃ b, (w k).data = .raw b ∧ b.length = len ∧ State.byteAt b flag = 0 := by
  unfold uninitialized at h
  rw [req_bind] at h
  have h2 := h.2
  split at h2
  · rename_i b hb
    rw [req_bind, req_ok] at h2
    exact ⟨b, hb, h2⟩
  · cases h2

theorem instr_raw {signers : List Pubkey} {i : TokenInstr} {w w' : World}
    {x : Pubkey} {b : List UInt8} (hm : MultisigAt env w x b) (hb : State.byteAt b 2 = 1)
    (h : i.exec env.tokenProgramId signers w = .ok w') : w' x = w x := by
  have hraw := hm.2.1
  have hu : ∀ {k : Pubkey} {len flag : Nat} {u : Unit} {d : Data},
      (len ≠ 355 ∨ flag = 2) → uninitialized env.tokenProgramId w k len flag = .ok u →
      w.setData k d x = w x := by
    intro k len flag u d hl hu
    obtain ⟨b', h1, h2, h3⟩ := uninitialized_raw hu
    refine setData_ne ?_
    rintro rfl
    rw [hraw] at h1
    cases h1
    rcases hl with hl | hl
    · exact hl (h2.symm.trans hm.2.2)
    · rw [hl, hb] at h3; cases h3
  have hg : ∀ {k : Pubkey} {t : TokenAccount} {d : Data},
      getToken env.tokenProgramId w k = .ok t → w.setData k d x = w x := by
    intro k t d ht
    rw [getToken_ok] at ht
    exact setData_raw_ne hraw (fun b' e => by rw [ht.2] at e; cases e)
  cases i with
  | initializeMint k a f =>
    unfold TokenInstr.exec at h
    simp only [] at h
    rw [Except_bind_ok] at h
    obtain ⟨u, hu', h⟩ := h
    cases h
    exact hu (Or.inl (by decide)) hu'
  | initializeAccount k m o =>
    unfold TokenInstr.exec at h
    simp only [] at h
    rw [Except_bind_ok] at h
    obtain ⟨u, hu', h⟩ := h
    rw [Except_bind_ok] at h
    obtain ⟨m1, _, h⟩ := h
    cases h
    exact hu (Or.inl (by decide)) hu'
  | initializeMultisig k m keys =>
    unfold TokenInstr.exec at h
    simp only [] at h
    rw [Except_bind_ok] at h
    obtain ⟨u, hu', h⟩ := h
    rw [req_bind] at h
    obtain ⟨_, h⟩ := h
    cases h
    exact hu (Or.inr rfl) hu'
  | transfer src dst a x' =>
    have hmv := transfer_ok h
    refine hmv.same x ?_ ?_
    · rintro rfl
      obtain ⟨s, _, e, _⟩ := hmv.srcTok
      rw [hraw] at e; cases e
    · rintro rfl
      obtain ⟨s, _, e⟩ := hmv.dstTok
      rw [hraw] at e; cases e
  | mintTo m dst a x' =>
    have hmv := mintTo_ok h
    refine hmv.same x ?_ ?_
    all_goals rintro rfl
    · obtain ⟨s, _, e, _⟩ := hmv.mintAcc
      rw [hraw] at e; cases e
    · obtain ⟨s, _, e, _⟩ := hmv.dstTok
      rw [hraw] at e; cases e
  | burn src m a x' =>
    have hmv := burn_ok h
    refine hmv.same x ?_ ?_
    all_goals rintro rfl
    · obtain ⟨s, _, e⟩ := hmv.mintAcc
      rw [hraw] at e; cases e
    · obtain ⟨s, _, e, _⟩ := hmv.srcTok
      rw [hraw] at e; cases e
  | approve src d a x' =>
    unfold TokenInstr.exec at h
    simp only [] at h
    rw [Except_bind_ok] at h
    obtain ⟨t, ht, h⟩ := h
    rw [req_bind] at h
    obtain ⟨_, h⟩ := h
    rw [Except_bind_ok] at h
    obtain ⟨u, hv, h⟩ := h
    cases h
    exact hg ht
  | revoke src a =>
    unfold TokenInstr.exec at h
    simp only [] at h
    rw [Except_bind_ok] at h
    obtain ⟨t, ht, h⟩ := h
    rw [req_bind] at h
    obtain ⟨_, h⟩ := h
    rw [Except_bind_ok] at h
    obtain ⟨u, hv, h⟩ := h
    cases h
    exact hg ht
  | setAuthority k kind a new =>
    have h : setAuthority env.tokenProgramId _ k kind a new w = .ok w' := h
    unfold setAuthority at h
    rw [req_bind] at h
    obtain ⟨_, h⟩ := h
    split at h
    · rename_i t ht
      have hne : ∀ {d : Data}, w.setData k d x = w x :=
        setData_raw_ne hraw (fun b' e => by rw [ht] at e; cases e)
      rw [req_bind] at h
      obtain ⟨_, h⟩ := h
      split at h
      · rw [Except_bind_ok] at h
        obtain ⟨u, hv, h⟩ := h
        rw [Except_bind_ok] at h
        obtain ⟨o, _, h⟩ := h
        cases h
        exact hne
      · rw [Except_bind_ok] at h
        obtain ⟨u, hv, h⟩ := h
        cases h
        exact hne
      · cases h
    · rename_i m hm'
      have hne : ∀ {d : Data}, w.setData k d x = w x :=
        setData_raw_ne hraw (fun b' e => by rw [hm'] at e; cases e)
      split at h
      · rw [Except_bind_ok] at h
        obtain ⟨a', ha', h⟩ := h
        rw [Except_bind_ok] at h
        obtain ⟨u, hv, h⟩ := h
        cases h
        exact hne
      · rw [Except_bind_ok] at h
        obtain ⟨a', ha', h⟩ := h
        rw [Except_bind_ok] at h
        obtain ⟨u, hv, h⟩ := h
        cases h
        exact hne
      · cases h
    · cases h
  | closeAccount k dst a =>
    unfold TokenInstr.exec at h
    simp only [] at h
    rw [req_bind] at h
    obtain ⟨_, h⟩ := h
    rw [Except_bind_ok] at h
    obtain ⟨t, ht, h⟩ := h
    rw [req_bind] at h
    obtain ⟨_, h⟩ := h
    rw [Except_bind_ok] at h
    obtain ⟨u, hv, h⟩ := h
    cases h
    exact hg ht
  | freezeAccount k m a =>
    have h : toggleFreeze env.tokenProgramId _ k m a true w = .ok w' := h
    unfold toggleFreeze at h
    rw [Except_bind_ok] at h
    obtain ⟨t, ht, h⟩ := h
    rw [req_bind, req_bind] at h
    obtain ⟨_, _, h⟩ := h
    rw [Except_bind_ok] at h
    obtain ⟨m1, _, h⟩ := h
    rw [Except_bind_ok] at h
    obtain ⟨a1, _, h⟩ := h
    rw [Except_bind_ok] at h
    obtain ⟨u, _, h⟩ := h
    cases h
    exact hg ht
  | thawAccount k m a =>
    have h : toggleFreeze env.tokenProgramId _ k m a false w = .ok w' := h
    unfold toggleFreeze at h
    rw [Except_bind_ok] at h
    obtain ⟨t, ht, h⟩ := h
    rw [req_bind, req_bind] at h
    obtain ⟨_, _, h⟩ := h
    rw [Except_bind_ok] at h
    obtain ⟨m1, _, h⟩ := h
    rw [Except_bind_ok] at h
    obtain ⟨a1, _, h⟩ := h
    rw [Except_bind_ok] at h
    obtain ⟨u, _, h⟩ := h
    cases h
    exact hg ht
  | syncNative k x' =>
    obtain ⟨t, ht, hm, hx, rfl⟩ := syncNative_ok h
    exact hg (getToken_ok.2 ht)

theorem consents_approves {w : World} {signers : List Pubkey} {a : Pubkey}
    (h : Consents env w signers a) (hb : ∀ b, MultisigAt env w a b → State.byteAt b 2 = 1) :
    approves env.tokenProgramId w signers a = true := by
  unfold approves
  rcases h with ⟨b, hm, P, h1, h2⟩ | ⟨h1, h2⟩
  · rw [if_pos hm.1, hm.2.1]
    simp only []
    rw [if_pos hm.2.2, Bool.and_eq_true, decide_eq_true_eq, decide_eq_true_eq]
    refine ⟨hb b hm, h1.trans ?_⟩
    rw [← List.toFinset_card_of_nodup (List.nodup_range.filter _)]
    refine Finset.card_le_card fun i hi => ?_
    rw [List.mem_toFinset, List.mem_filter, List.mem_range, decide_eq_true_eq]
    exact h2 i hi
  · split
    · rename_i ho
      split
      · rename_i b hb'
        split
        · rename_i hl
          exact absurd ⟨b, ho, hb', hl⟩ h1
        · exact decide_eq_true h2
      · exact decide_eq_true h2
    · exact decide_eq_true h2

end Token

end Verif
