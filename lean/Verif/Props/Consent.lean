import Verif.Lemmas.Consent
import Verif.Props.Supply

/-
C77: tokens move only with the approval of their owner.
-/

namespace Verif
namespace Props
open Spec Token

/-- C77.  Whatever happens - instructions of this program, of the token program, steps of anybody
else - without the approval of its owner: a token account stays with its owner, at most the
allowance granted before leaves it, what leaves it is taken off the allowance, and no other
delegate appears. -/
theorem C77_allowance (env : Env) (sys : Pubkey) (K : Pubkey → Prop) (w w' : World)
    (k m o : Pubkey) (ho : ¬ IsPda env K o) (hk : OwnedBy env w k m o)
    (h : Relation.ReflTransGen (Without env sys K (· = o)) w w') :
    OwnedBy env w' k m o ∧ bal w k - bal w' k ≤ allowed w k - allowed w' k ∧
    0 ≤ allowed w' k ∧ allowed w' k ≤ allowed w k ∧
    (delegateOf w' k = delegateOf w k ∨ delegateOf w' k = none) := by
  obtain ⟨h1, t, h2, h3, h4, h5⟩ := hk
  have hr := respects_all (S := (· = o)) (k := k) (fun x hx => hx ▸ ho) h
  obtain ⟨g1, t', g2, g3, g4, g5, g6, g7, g8, _⟩ := hr t h1 (tokenAt_some.1 h2) h4 h5
  have e := tokenAt_some.2 g2
  have a1 : allowed w k = t.allow := by
    unfold allowed TokenAccount.allow; rw [h2]; simp only []; split <;> rfl
  have a2 : allowed w' k = t'.allow := by
    unfold allowed TokenAccount.allow; rw [e]; simp only []; split <;> rfl
  refine ⟨⟨g1, t', e, g3.trans h3, g4.trans h4, g5⟩, ?_, by omega, by omega, ?_⟩
  · rw [a1, a2, bal_token (tokenAt_some.1 h2), bal_token g2]
    omega
  · unfold delegateOf
    rw [h2, e]
    exact g6

/-- C77.  If neither its owner nor its delegate approves of anything, nothing leaves a token
account, and its delegate keeps the allowance: only the owner can revoke it. -/
theorem C77_untouched (env : Env) (sys : Pubkey) (K S : Pubkey → Prop) (w w' : World)
    (k m o : Pubkey) (hS : ∀ x, S x → ¬ IsPda env K x) (ho : S o)
    (hd : ∀ d, delegateOf w k = some d → S d) (hk : OwnedBy env w k m o)
    (h : Relation.ReflTransGen (Without env sys K S) w w') :
    OwnedBy env w' k m o ∧ bal w k ≤ bal w' k ∧
    delegateOf w' k = delegateOf w k ∧ allowed w' k = allowed w k := by
  obtain ⟨h1, t, h2, h3, h4, h5⟩ := hk
  obtain ⟨g1, t', g2, g3, g4, g5, _, _, _, g9⟩ :=
    respects_all hS (k := k) h t h1 (tokenAt_some.1 h2) (h4 ▸ ho) h5
  have e := tokenAt_some.2 g2
  obtain ⟨f1, f2, f3⟩ := g9 (fun d hd' => hd d (by unfold delegateOf; rw [h2]; exact hd'))
  refine ⟨⟨g1, t', e, g3.trans h3, g4.trans h4, g5⟩, ?_, ?_, ?_⟩
  · rw [bal_token (tokenAt_some.1 h2), bal_token g2]
    omega
  · unfold delegateOf
    rw [h2, e]
    exact f2
  · have a1 : allowed w k = t.allow := by
      unfold allowed TokenAccount.allow; rw [h2]; simp only []; split <;> rfl
    have a2 : allowed w' k = t'.allow := by
      unfold allowed TokenAccount.allow; rw [e]; simp only []; split <;> rfl
    rw [a1, a2, f3]

/-- C77.  The steps considered are all there are: any step has signers such that nobody has
approved of it but them, and multisigs enough of whose keys are among them. -/
theorem C77_all_steps (env : Env) (sys : Pubkey) (K : Pubkey → Prop)
    (hst : sys ≠ env.tokenProgramId) (hid : env.programId ≠ env.tokenProgramId) (w w' : World)
    (h : Move env sys K w w') :
    ∃ signers, (∀ x ∈ signers, ¬ IsPda env K x) ∧
      ∀ S : Pubkey → Prop, (∀ x, S x → x ∉ signers ∧ ¬ Consents env w signers x) →
        Without env sys K S w w' := by
  have hset : ∀ {k : Pubkey} {a : Account}, Outside env sys K w w' → w' = w.set k a →
      ((w k).owner = env.tokenProgramId → Zeros (w k).data) →
      ∃ signers, (∀ x ∈ signers, ¬ IsPda env K x) ∧
      ∀ S : Pubkey → Prop, (∀ x, S x → x ∉ signers ∧ ¬ Consents env w signers x) →
        Without env sys K S w w' := by
    intro k a h0 h hz
    refine ⟨[], by simp, fun S _ => .other h0 fun j h1 h2 => ?_⟩
    rw [h]
    by_cases e : j = k
    · exact absurd (e ▸ hz (e ▸ h1)) h2
    · exact set_same e
  cases h with
  | instr signers i hk hs h =>
    exact ⟨signers, hs, fun S hS => .instr signers i hk hs (fun x hx hSx => (hS x hSx).1 hx) h⟩
  | outside h0 =>
    cases h0 with
    | token signers i hs h =>
      exact ⟨signers, hs, fun S hS => .token signers i hs (fun x hx => (hS x hx).2) h⟩
    | create k owner n hk ho h =>
      exact hset (.create k owner n hk ho h) h fun e => absurd (ho.symm.trans e) hst
    | system k d ho h =>
      exact hset (.system k d ho h) h fun e => absurd (ho.symm.trans e) hst
    | program p h1 h2 h3 h =>
      refine ⟨[], by simp, fun S _ => .other (.program p h1 h2 h3 h) fun j e1 e2 => ?_⟩
      rcases h j with e | ⟨e, _⟩
      · exact e
      · exact absurd (e.symm.trans e1) h2
    | purge k ho hz h => exact hset (.purge k ho hz h) h fun _ => hz
    | idl k t hk ho h =>
      refine hset (.idl k t hk ho h) h fun e => ?_
      rcases ho with ho | ⟨ho, _⟩
      · exact absurd (ho.symm.trans e) hst
      · exact absurd (ho.symm.trans e) hid

/-- C77.  And they are steps: nothing is assumed of an execution but who approved. -/
theorem C77_only_steps (env : Env) (sys : Pubkey) (K S : Pubkey → Prop) (w w' : World)
    (h : Without env sys K S w w') : Move env sys K w w' := by
  cases h with
  | instr signers i hk hs hn h => exact .instr signers i hk hs h
  | token signers i hs hn h => exact .outside (.token signers i hs h)
  | other h hn => exact .outside h

/-! ### Multisigs -/

/-- C77.  The keys and the threshold of a multisig never change, so approving on behalf of it always
takes that many of the same keys. -/
theorem C77_multisig (env : Env) (sys : Pubkey) (K : Pubkey → Prop)
    (hst : sys ≠ env.tokenProgramId) (hid : env.programId ≠ env.tokenProgramId) (w w' : World)
    (x : Pubkey) (b : List UInt8) (hm : MultisigAt env w x b) (hb : State.byteAt b 2 = 1)
    (h : Moves env sys K w w') :
    MultisigAt env w' x b ∧ ∀ signers, Consents env w' signers x ↔ Enough b signers := by
  have key : MultisigAt env w' x b := by
    induction h with
    | refl => exact hm
    | @tail u v _ hs ih =>
      have same : v x = u x → MultisigAt env v x b := by
        intro e; unfold MultisigAt at *; rw [e]; exact ih
      have hset : ∀ {k : Pubkey} {a : Account}, v = u.set k a →
          ((u k).owner = env.tokenProgramId → Zeros (u k).data) → v x = u x := by
        intro k a h hz
        rw [h]
        refine set_same ?_
        rintro rfl
        obtain ⟨n, hn⟩ := hz ih.1
        rw [ih.2.1] at hn
        cases hn
        rw [byte_zeros] at hb
        cases hb
      cases hs with
      | instr signers i hk hs h =>
        rcases exec_frame h with ⟨a, f, c, hi⟩ | hf
        · obtain ⟨w1, hf, hw, ho, _⟩ := init_shape hi h
          have hx : x ≠ a.swap := by
            rintro rfl
            obtain ⟨_, hp⟩ := exec_init hi h
            obtain ⟨tA, tB, fa, de, pm, bytes, old, w2, r⟩ := Processor.processInitialize_ok hp
            exact hid ((r.owner.symm.trans (r.minted.frame a.swap).1).trans ih.1)
          refine ⟨by rw [hw x hx, (hf x).1]; exact ih.1, ?_, ih.2.2⟩
          rw [hw x hx]
          have := (hf x).2
          rw [ih.2.1] at this
          unfold DataFrame at this
          split at this <;> simp_all
        · refine ⟨by rw [(hf x).1]; exact ih.1, ?_, ih.2.2⟩
          have := (hf x).2
          rw [ih.2.1] at this
          unfold DataFrame at this
          split at this <;> simp_all
      | outside h0 =>
        refine same ?_
        cases h0 with
        | token signers i hs h => exact instr_raw ih hb h
        | create k owner n hk ho h => exact hset h fun e => absurd (ho.symm.trans e) hst
        | system k d ho h => exact hset h fun e => absurd (ho.symm.trans e) hst
        | program p h1 h2 h3 h =>
          rcases h x with e | ⟨e, _⟩
          · exact e
          · exact absurd (e.symm.trans ih.1) h2
        | purge k ho hz h => exact hset h fun _ => hz
        | idl k t hk ho h =>
          refine hset h fun e => ?_
          rcases ho with ho | ⟨ho, _⟩
          · exact absurd (ho.symm.trans e) hst
          · exact absurd (ho.symm.trans e) hid
  refine ⟨key, fun signers => ⟨?_, fun h => Or.inl ⟨b, key, h⟩⟩⟩
  rintro (⟨b', h1, h2⟩ | ⟨h1, _⟩)
  · have : b' = b := by
      have e := h1.2.1
      rw [key.2.1] at e
      cases e; rfl
    exact this ▸ h2
  · exact absurd ⟨b, key⟩ h1

/-- C77.  Consent is also enough: with it the token program moves what is there. -/
theorem C77_spends (env : Env) (w : World) (signers : List Pubkey) (src dst m o : Pubkey)
    (x : UInt64) (hp : CanPay env w src m o x.toNat) (hr : CanReceive env w dst m x.toNat)
    (hne : src ≠ dst) (hb : ∀ b, MultisigAt env w o b → State.byteAt b 2 = 1)
    (hc : Consents env w signers o) :
    ∃ w', (TokenInstr.transfer src dst o x).exec env.tokenProgramId signers w = .ok w' ∧
      bal w' src = bal w src - x.toNat ∧ bal w' dst = bal w dst + x.toNat := by
  obtain ⟨w', hw⟩ := transfer_of (signed := approves env.tokenProgramId w signers) hp hr
    (consents_approves hc hb) hne
  refine ⟨w', hw, ?_, ?_⟩
  · rw [(transfer_ok hw).bal, when_neg hne, when_pos rfl]
    omega
  · rw [(transfer_ok hw).bal, when_pos rfl, when_neg (fun e => hne e.symm)]
    omega

/-! ### The hypotheses are met -/

/-- User 50 allows 1500 of the tokens in account 30 to be spent by 62. -/
def lent : World := match (TokenInstr.approve (Sample.key 30) (Sample.key 62) (Sample.key 50)
    1500).exec Sample.env.tokenProgramId [Sample.key 50] live with
  | .ok w => w
  | .error _ => live

/-- A trade on the constant-price pool with the tokens of 50, authorised by 62. -/
def lentTrade (x : UInt64) : Instr :=
  .swap ⟨Sample.key 2, Sample.key 130, Sample.key 62, Sample.key 30, Sample.key 13, Sample.key 14,
    Sample.key 31, Sample.key 15, Sample.key 16, Sample.key 101⟩ x 1

theorem lent_owned : OwnedBy Sample.env lent (Sample.key 30) (Sample.key 20) (Sample.key 50) :=
  ⟨by decide +kernel, ⟨Sample.key 20, Sample.key 50, 18987, some (Sample.key 62), false, 1500, none⟩,
    by decide +kernel, rfl, rfl, rfl⟩

theorem user62 : ∀ x ∈ [Sample.key 62], ¬ IsPda Sample.env samplePools x := by
  rintro x hx ⟨k, b, hk, h⟩
  rw [List.mem_singleton.1 hx] at h
  unfold Sample.env at h
  simp only [] at h
  split at h
  · have h := Option.some.inj h
    rcases hk with rfl | rfl <;> revert h <;> decide +kernel
  · cases h

/-- 62 trades with 995 of the tokens; 505 of the allowance are left, and a trade for more fails. -/
example : ∃ w, exec Sample.env [Sample.key 62] (lentTrade 1000) lent = .ok w ∧
    bal lent (Sample.key 30) - bal w (Sample.key 30) = 995 ∧ allowed lent (Sample.key 30) = 1500 ∧
    allowed w (Sample.key 30) = 505 ∧
    OwnedBy Sample.env w (Sample.key 30) (Sample.key 20) (Sample.key 50) ∧
    isOk (exec Sample.env [Sample.key 62] (lentTrade 1000) w) = false := by
  have h : Sample.after (exec Sample.env [Sample.key 62] (lentTrade 1000) lent) (fun w =>
      [bal lent (Sample.key 30) - bal w (Sample.key 30), allowed lent (Sample.key 30),
        allowed w (Sample.key 30),
        if isOk (exec Sample.env [Sample.key 62] (lentTrade 1000) w) then 1 else 0]) =
      .ok [995, 1500, 505, 0] := by decide +kernel
  obtain ⟨w, hw⟩ := of_isOk (x := exec Sample.env [Sample.key 62] (lentTrade 1000) lent)
    (by decide +kernel)
  rw [hw] at h
  unfold Sample.after at h
  simp only [Except.ok.injEq, List.cons.injEq, and_true] at h
  obtain ⟨h1, h2, h3, h4⟩ := h
  refine ⟨w, hw, h1, h2, h3, ?_, ?_⟩
  · refine (C77_allowance Sample.env (Sample.key 0) samplePools lent w (Sample.key 30) (Sample.key 20)
      (Sample.key 50) user lent_owned (.single (.instr _ _ (Or.inr rfl) user62 ?_ hw))).1
    intro x hx
    rw [List.mem_singleton.1 hx]
    decide
  · cases e : isOk (exec Sample.env [Sample.key 62] (lentTrade 1000) w) with
    | false => rfl
    | true => rw [e] at h4; cases h4

/-- Account 40 belongs to the multisig 70, two of 71, 72, 73. -/
def joint : World := Sample.ledger [
  (Sample.key 40, Sample.tok (Sample.key 20) (Sample.key 70) 500),
  (Sample.key 41, Sample.tok (Sample.key 20) (Sample.key 71) 90),
  (Sample.key 70, ⟨Sample.key 101, .raw (packMultisig 2 [Sample.key 71, Sample.key 72,
    Sample.key 73])⟩)]

theorem joint_multisig : MultisigAt Sample.env joint (Sample.key 70)
    (packMultisig 2 [Sample.key 71, Sample.key 72, Sample.key 73]) :=
  ⟨by decide +kernel, by decide +kernel, by decide +kernel⟩

theorem joint_owned : OwnedBy Sample.env joint (Sample.key 40) (Sample.key 20) (Sample.key 70) :=
  ⟨by decide +kernel, ⟨Sample.key 20, Sample.key 70, 500, none, false, 0, none⟩, by decide +kernel,
    rfl, rfl, rfl⟩

/-- Two keys can spend, in whatever order they sign. -/
example : ∃ w', (TokenInstr.transfer (Sample.key 40) (Sample.key 41) (Sample.key 70) 33).exec
    Sample.env.tokenProgramId [Sample.key 73, Sample.key 71] joint = .ok w' ∧
    bal w' (Sample.key 40) = bal joint (Sample.key 40) - (33 : UInt64).toNat ∧
    bal w' (Sample.key 41) = bal joint (Sample.key 41) + (33 : UInt64).toNat := by
  refine C77_spends Sample.env joint _ _ _ (Sample.key 20) _ _
    ⟨by decide +kernel, ⟨Sample.key 20, Sample.key 70, 500, none, false, 0, none⟩, by decide +kernel,
      rfl, rfl, by decide, rfl, by decide⟩
    ⟨by decide +kernel, ⟨Sample.key 20, Sample.key 71, 90, none, false, 0, none⟩, by decide +kernel,
      rfl, rfl, by decide⟩ (by decide) ?_ (Or.inl ⟨_, joint_multisig, {0, 2}, by decide +kernel, ?_⟩)
  · intro b hb
    have e := hb.2.1
    rw [joint_multisig.2.1] at e
    cases e
    decide +kernel
  · decide +kernel

/-- One key, or the address of the multisig itself, is not enough: 71 does what it wants with its
own account, and account 40 only gains. -/
theorem joint_refuses : ¬ Consents Sample.env joint [Sample.key 71, Sample.key 70] (Sample.key 70) := by
  rintro (⟨b, hb, P, h1, h2⟩ | ⟨h, _⟩)
  · have e := hb.2.1
    rw [joint_multisig.2.1] at e
    cases e
    have e0 : (State.byteAt (packMultisig 2 [Sample.key 71, Sample.key 72, Sample.key 73]) 0).toNat = 2 :=
      by decide +kernel
    have e1 : (State.byteAt (packMultisig 2 [Sample.key 71, Sample.key 72, Sample.key 73]) 1).toNat = 3 :=
      by decide +kernel
    rw [e0] at h1
    rw [e1] at h2
    have hP : P ⊆ {0} := by
      intro i hi
      obtain ⟨hlt, hk⟩ := h2 i hi
      rw [Finset.mem_singleton]
      obtain rfl | rfl | rfl : i = 0 ∨ i = 1 ∨ i = 2 := by omega
      · rfl
      · revert hk; decide +kernel
      · revert hk; decide +kernel
    have := Finset.card_le_card hP
    rw [Finset.card_singleton] at this
    omega
  · exact h ⟨_, joint_multisig⟩

example : isOk ((TokenInstr.transfer (Sample.key 40) (Sample.key 41) (Sample.key 70) 33).exec
    Sample.env.tokenProgramId [Sample.key 71, Sample.key 70] joint) = false := by decide +kernel

example : ∃ w, (TokenInstr.transfer (Sample.key 41) (Sample.key 40) (Sample.key 71) 33).exec
    Sample.env.tokenProgramId [Sample.key 71, Sample.key 70] joint = .ok w ∧
    OwnedBy Sample.env w (Sample.key 40) (Sample.key 20) (Sample.key 70) ∧
    bal joint (Sample.key 40) ≤ bal w (Sample.key 40) ∧
    delegateOf w (Sample.key 40) = delegateOf joint (Sample.key 40) ∧
    allowed w (Sample.key 40) = allowed joint (Sample.key 40) := by
  obtain ⟨w, hw⟩ := of_isOk (x := (TokenInstr.transfer (Sample.key 41) (Sample.key 40) (Sample.key 71)
    33).exec Sample.env.tokenProgramId [Sample.key 71, Sample.key 70] joint) (by decide +kernel)
  have hp : ∀ x ∈ [Sample.key 71, Sample.key 70], ¬ IsPda Sample.env samplePools x := by
    rintro x hx ⟨k, b, hk, h⟩
    unfold Sample.env at h
    simp only [] at h
    split at h
    · have h := Option.some.inj h
      revert hx
      rw [← h]
      rcases hk with rfl | rfl <;> decide +kernel
    · cases h
  refine ⟨w, hw, C77_untouched Sample.env (Sample.key 0) samplePools (· = Sample.key 70) _ _ _ _ _
    (fun x hx => hp x (by rw [hx]; decide)) rfl (fun d hd => ?_) joint_owned
    (.single (.token _ _ hp ?_ hw))⟩
  · have : delegateOf joint (Sample.key 40) = none := by decide +kernel
    rw [this] at hd; cases hd
  · intro x hx
    rw [hx]; exact joint_refuses

/-- `C77_multisig` on the multisig in an execution. -/
example (w : World) (h : Moves Sample.env (Sample.key 0) samplePools joint w) :
    ¬ Consents Sample.env w [Sample.key 71, Sample.key 70] (Sample.key 70) := by
  have hm := C77_multisig Sample.env (Sample.key 0) samplePools (by decide) (by decide) joint
  rw [(hm w _ _ joint_multisig (by decide +kernel) h).2,
    ← (hm joint _ _ joint_multisig (by decide +kernel) .refl).2]
  exact joint_refuses

/-- Steps of an execution, as `C77_all_steps` has them. -/
example : ∃ w, Move Sample.env (Sample.key 0) samplePools lent w ∧
    exec Sample.env [Sample.key 62] (lentTrade 1000) lent = .ok w := by
  obtain ⟨w, hw⟩ := of_isOk (x := exec Sample.env [Sample.key 62] (lentTrade 1000) lent)
    (by decide +kernel)
  exact ⟨w, C77_only_steps Sample.env (Sample.key 0) samplePools (· = Sample.key 50) _ _
    (.instr _ _ (Or.inr rfl) user62 (by
      intro x hx; rw [List.mem_singleton.1 hx]; decide) hw), hw⟩

end Props
end Verif
