import Verif.Spec.Guard
import Verif.Lemmas.Runs

/-
Frozen accounts and allowances through token calls.
-/

namespace Verif
open Spec

theorem allowance_token {w : World} {k u : Pubkey} {t : TokenAccount}
    (h : (w k).data = .token t) : allowance w k u =
      if t.delegate = some u then (t.delegated_amount.toNat : Int) else 0 := by
  unfold allowance
  rw [tokenAt_some.2 h]

theorem allowance_congr {w w' : World} {k u : Pubkey} (h : (w' k).data = (w k).data) :
    allowance w' k u = allowance w k u := by
  unfold allowance tokenAt
  rw [h]

/-- Outside `X`, accounts not owned by `u` lose only what `u`'s allowance loses, other allowances
stay, and frozen accounts stay altogether. -/
structure Guard (u : Pubkey) (X : Pubkey → Prop) (w w' : World) : Prop where
  frozen : ∀ k t, (w k).data = .token t → t.frozen = true → w' k = w k
  spent : ∀ k t, (w k).data = .token t → t.owner ≠ u → ¬ X k →
    bal w k - bal w' k ≤ allowance w k u - allowance w' k u
  others : ∀ k t, (w k).data = .token t → ¬ X k → ∀ v, v ≠ u → allowance w' k v = allowance w k v

theorem Guard.refl (u : Pubkey) (X : Pubkey → Prop) (w : World) : Guard u X w w :=
  ⟨fun _ _ _ _ => rfl, fun _ _ _ _ _ => by omega, fun _ _ _ _ _ _ => rfl⟩

theorem Guard.trans {u : Pubkey} {X : Pubkey → Prop} {a b c : World} (h1 : Guard u X a b)
    (hf : Frame a b) (h2 : Guard u X b c) : Guard u X a c := by
  refine ⟨fun k t hk ht => ?_, fun k t hk ho hx => ?_, fun k t hk hx v hv => ?_⟩
  · have e := h1.frozen k t hk ht
    rw [← e]
    exact h2.frozen k t (by rw [e]; exact hk) ht
  · obtain ⟨t', k1, _, k2, _⟩ := hf.token hk
    have := h1.spent k t hk ho hx
    have := h2.spent k t' k1 (by rw [k2]; exact ho) hx
    omega
  · obtain ⟨t', k1, _⟩ := hf.token hk
    rw [h2.others k t' k1 hx v hv, h1.others k t hk hx v hv]

namespace Token

/-- The two ways of being authorised, with what remains of the allowance. -/
theorem authorize_cases {signed : Pubkey → Bool} {t t' : TokenAccount} {a : Pubkey} {x : UInt64}
    (h : authorize signed t a x = .ok t') :
    (t.delegate = some a ∧ t'.delegated_amount.toNat + x.toNat = t.delegated_amount.toNat ∧
      (t'.delegate = some a ∨ t'.delegate = none ∧ t'.delegated_amount.toNat = 0)) ∨
    (t.delegate ≠ some a ∧ t.owner = a ∧ t' = t) := by
  unfold authorize at h
  split at h
  · rename_i hd
    rw [req_bind] at h
    obtain ⟨hs, h⟩ := h
    rw [Except_bind_ok] at h
    obtain ⟨r, hr, h⟩ := h
    rw [optErr_ok, checkedSub64_some] at hr
    cases h
    refine Or.inl ⟨hd, hr.2, ?_⟩
    simp only []
    split
    · rename_i h0
      exact Or.inr ⟨rfl, by rw [h0]; rfl⟩
    · exact Or.inl hd
  · rename_i hd
    unfold validateOwner at h
    rw [Except_bind_ok] at h
    obtain ⟨_, h1, h⟩ := h
    rw [req_bind, req_ok] at h1
    cases h
    exact Or.inr ⟨hd, h1.1, rfl⟩

/-- An account after a debit of `x` on authority `a`. -/
theorem debit_guard {signed : Pubkey → Bool} {s s' : TokenAccount} {a u : Pubkey} {x sa : UInt64}
    {w w' : World} {src : Pubkey} {X : Pubkey → Prop} (hau : authorize signed s a x = .ok s')
    (hs : (w src).data = .token s) (hs' : (w' src).data = .token { s' with amount := sa })
    (hsa : sa.toNat + x.toNat = s.amount.toNat) (ha : a = u ∨ X src) :
    (s.owner ≠ u → ¬ X src → bal w src - bal w' src ≤ allowance w src u - allowance w' src u) ∧
      (¬ X src → ∀ v, v ≠ u → allowance w' src v = allowance w src v) := by
  refine ⟨fun ho hx => ?_, fun hx v hv => ?_⟩
  · have hau' := ha.resolve_right hx
    subst hau'
    rw [bal_token hs, bal_token hs', allowance_token hs, allowance_token hs']
    rcases authorize_cases hau with ⟨h1, h2, h3⟩ | ⟨_, h2, _⟩
    · rw [if_pos h1]
      simp only []
      rcases h3 with h3 | ⟨h3, h4⟩
      · rw [if_pos h3]; omega
      · rw [h3, if_neg (by intro h; cases h)]; omega
    · exact absurd h2 ho
  · have hau' := ha.resolve_right hx
    subst hau'
    rw [allowance_token hs, allowance_token hs']
    simp only []
    rcases authorize_cases hau with ⟨h1, h2, h3⟩ | ⟨_, h2, h3⟩
    · rw [h1, if_neg (fun h => hv (Option.some.inj h).symm)]
      rcases h3 with h3 | ⟨h3, h4⟩
      · rw [h3, if_neg (fun h => hv (Option.some.inj h).symm)]
      · rw [h3, if_neg (by intro h; cases h)]
    · rw [h3]

theorem transfer_guard {tp : Pubkey} {signed : Pubkey → Bool} {src dst a u : Pubkey} {x : UInt64}
    {w w' : World} {X : Pubkey → Prop} (h : transfer tp signed src dst a x w = .ok w')
    (ha : a = u ∨ X src) : Guard u X w w' := by
  unfold transfer at h
  rw [Except_bind_ok] at h
  obtain ⟨s, hs, h⟩ := h
  rw [Except_bind_ok] at h
  obtain ⟨d, hd, h⟩ := h
  rw [req_bind, req_bind, req_bind] at h
  obtain ⟨hf, hle, hm, h⟩ := h
  rw [Except_bind_ok] at h
  obtain ⟨s', hau, h⟩ := h
  rw [getToken_ok] at hs hd
  split at h
  · cases h
    exact Guard.refl u X w
  · rename_i hsd
    rw [Except_bind_ok] at h
    obtain ⟨sa, hsa, h⟩ := h
    rw [Except_bind_ok] at h
    obtain ⟨da, hda, h⟩ := h
    rw [optErr_ok, checkedSub64_some] at hsa
    rw [optErr_ok, checkedAdd64_some] at hda
    generalize hw' : ((w.setData src (.token { s' with amount := sa })).setData dst
      (.token { d with amount := da })) = v at h
    have hdata : ∀ k, (v k).data =
        if k = dst then .token { d with amount := da }
        else if k = src then .token { s' with amount := sa } else (w k).data := by
      intro k; rw [← hw', setData_data, setData_data]
    have hsame : ∀ k, k ≠ src → k ≠ dst → v k = w k := by
      intro k h1 h2
      rw [← hw']
      unfold World.setData
      rw [if_neg h2, if_neg h1]
    cases h
    have e1 := hdata src
    rw [if_neg hsd, if_pos rfl] at e1
    have e2 := hdata dst
    rw [if_pos rfl] at e2
    obtain ⟨g1, g2⟩ := debit_guard (X := X) hau hs.2 e1 hsa.2 ha
    refine ⟨fun k t hk ht => ?_, fun k t hk ho hx => ?_, fun k t hk hx v hv => ?_⟩
    · refine hsame k (fun hh => ?_) (fun hh => ?_)
      · rw [hh, hs.2] at hk
        cases hk
        rw [hf.1] at ht
        cases ht
      · rw [hh, hd.2] at hk
        cases hk
        rw [hf.2] at ht
        cases ht
    · by_cases h1 : k = src
      · subst h1
        rw [hs.2] at hk
        cases hk
        exact g1 ho hx
      · by_cases h2 : k = dst
        · subst h2
          rw [bal_token hd.2, bal_token e2, allowance_token hd.2, allowance_token e2]
          simp only []
          omega
        · have := hsame k h1 h2
          rw [bal_congr (congrArg Account.data this), allowance_congr (congrArg Account.data this)]
          omega
    · by_cases h1 : k = src
      · subst h1
        exact g2 hx v hv
      · by_cases h2 : k = dst
        · subst h2
          rw [allowance_token hd.2, allowance_token e2]
        · exact allowance_congr (congrArg Account.data (hsame k h1 h2))

theorem mintTo_guard {tp : Pubkey} {signed : Pubkey → Bool} {mint dst a u : Pubkey} {x : UInt64}
    {w w' : World} {X : Pubkey → Prop} (h : mintTo tp signed mint dst a x w = .ok w') :
    Guard u X w w' := by
  have hM := mintTo_ok h
  unfold mintTo at h
  rw [Except_bind_ok] at h
  obtain ⟨d, hd, h⟩ := h
  rw [req_bind, req_bind] at h
  obtain ⟨hf, hdm, h⟩ := h
  rw [Except_bind_ok] at h
  obtain ⟨m, hm, h⟩ := h
  rw [Except_bind_ok] at h
  obtain ⟨au, hau, h⟩ := h
  rw [Except_bind_ok] at h
  obtain ⟨_, hv, h⟩ := h
  rw [Except_bind_ok] at h
  obtain ⟨da, hda, h⟩ := h
  rw [Except_bind_ok] at h
  obtain ⟨ms, hms, h⟩ := h
  rw [getToken_ok] at hd
  rw [getMint_ok] at hm
  have hne : dst ≠ mint := by
    intro hh
    have := hd.2
    rw [hh, hm.2] at this
    cases this
  have e2 : (w' dst).data = .token { d with amount := da } := by
    cases h
    rw [setData_data, if_neg hne, setData_data, if_pos rfl]
  have kne : ∀ k t, (w k).data = .token t → k ≠ mint := by
    intro k t hk hh
    rw [hh, hm.2] at hk
    cases hk
  have hall : ∀ k t v, (w k).data = .token t → allowance w' k v = allowance w k v := by
    intro k t v hk
    by_cases h2 : k = dst
    · subst h2
      rw [allowance_token hd.2, allowance_token e2]
    · exact allowance_congr (congrArg Account.data (hM.same k (kne k t hk) h2))
  refine ⟨fun k t hk ht => ?_, fun k t hk ho hx => ?_, fun k t hk hx v hv => hall k t v hk⟩
  · refine hM.same k (kne k t hk) (fun hh => ?_)
    rw [hh, hd.2] at hk
    cases hk
    rw [hf] at ht
    cases ht
  · rw [hall k t u hk, hM.bal]
    have : 0 ≤ Spec.when (k = dst) (x.toNat : Int) := by
      unfold Spec.when
      split
      · exact Int.natCast_nonneg _
      · exact Int.le_refl 0
    omega

theorem burn_guard {tp : Pubkey} {signed : Pubkey → Bool} {src mint a : Pubkey} {x : UInt64}
    {w w' : World} {X : Pubkey → Prop} (h : burn tp signed src mint a x w = .ok w') :
    Guard a X w w' := by
  have hM := burn_ok h
  unfold burn at h
  rw [Except_bind_ok] at h
  obtain ⟨s, hs, h⟩ := h
  rw [Except_bind_ok] at h
  obtain ⟨m, hm, h⟩ := h
  rw [req_bind, req_bind, req_bind] at h
  obtain ⟨hf, hle, hsm, h⟩ := h
  rw [Except_bind_ok] at h
  obtain ⟨s', hau, h⟩ := h
  rw [Except_bind_ok] at h
  obtain ⟨sa, hsa, h⟩ := h
  rw [Except_bind_ok] at h
  obtain ⟨ms, hms, h⟩ := h
  rw [getToken_ok] at hs
  rw [getMint_ok] at hm
  rw [optErr_ok, checkedSub64_some] at hsa
  have hne : src ≠ mint := by
    intro hh
    have := hs.2
    rw [hh, hm.2] at this
    cases this
  have e1 : (w' src).data = .token { s' with amount := sa } := by
    cases h
    rw [setData_data, if_neg hne, setData_data, if_pos rfl]
  have kne : ∀ k t, (w k).data = .token t → k ≠ mint := by
    intro k t hk hh
    rw [hh, hm.2] at hk
    cases hk
  obtain ⟨g1, g2⟩ := debit_guard (X := X) hau hs.2 e1 hsa.2 (Or.inl rfl)
  refine ⟨fun k t hk ht => ?_, fun k t hk ho hx => ?_, fun k t hk hx v hv => ?_⟩
  · refine hM.same k (kne k t hk) (fun hh => ?_)
    rw [hh, hs.2] at hk
    cases hk
    rw [hf] at ht
    cases ht
  · by_cases h1 : k = src
    · subst h1
      rw [hs.2] at hk
      cases hk
      exact g1 ho hx
    · have := congrArg Account.data (hM.same k (kne k t hk) h1)
      rw [bal_congr this, allowance_congr this]
      omega
  · by_cases h1 : k = src
    · subst h1
      exact g2 hx v hv
    · exact allowance_congr (congrArg Account.data (hM.same k (kne k t hk) h1))

end Token

namespace Processor

theorem tokenTransfer_guard {env : Env} {signers : List Pubkey} {swap tp src dst a u : Pubkey}
    {bump : UInt8} {x : UInt64} {w w' : World} {X : Pubkey → Prop}
    (h : tokenTransfer env signers swap tp src dst a bump x w = .ok w') (ha : a = u ∨ X src) :
    Guard u X w w' ∧ Frame w w' := by
  refine ⟨?_, (tokenTransfer_ok h).2.choose_spec.choose_spec.2.2.frame⟩
  unfold tokenTransfer at h
  rw [req_bind] at h
  obtain ⟨_, h⟩ := h
  rw [Except_bind_ok] at h
  obtain ⟨f, _, h⟩ := h
  exact Token.transfer_guard h ha

theorem tokenMintTo_guard {env : Env} {signers : List Pubkey} {swap tp mint dst a u : Pubkey}
    {bump : UInt8} {x : UInt64} {w w' : World} {X : Pubkey → Prop}
    (h : tokenMintTo env signers swap tp mint dst a bump x w = .ok w') :
    Guard u X w w' ∧ Frame w w' := by
  refine ⟨?_, (tokenMintTo_ok h).2.choose_spec.choose_spec.2.2.frame⟩
  unfold tokenMintTo at h
  rw [req_bind] at h
  obtain ⟨_, h⟩ := h
  rw [Except_bind_ok] at h
  obtain ⟨f, _, h⟩ := h
  exact Token.mintTo_guard h

theorem tokenBurn_guard {env : Env} {signers : List Pubkey} {swap tp src mint a : Pubkey}
    {bump : UInt8} {x : UInt64} {w w' : World} {X : Pubkey → Prop}
    (h : tokenBurn env signers swap tp src mint a bump x w = .ok w') :
    Guard a X w w' ∧ Frame w w' := by
  refine ⟨?_, (tokenBurn_ok h).2.choose_spec.choose_spec.2.2.frame⟩
  unfold tokenBurn at h
  rw [req_bind] at h
  obtain ⟨_, h⟩ := h
  rw [Except_bind_ok] at h
  obtain ⟨f, _, h⟩ := h
  exact Token.burn_guard h

theorem tokenTransferIfPos_guard {env : Env} {signers : List Pubkey}
    {swap tp src dst a u : Pubkey} {bump : UInt8} {x : UInt64} {w w' : World} {X : Pubkey → Prop}
    (h : tokenTransferIfPos env signers swap tp src dst a bump x w = .ok w') (ha : a = u ∨ X src) :
    Guard u X w w' ∧ Frame w w' := by
  rcases tokenTransferIfPos_ok h with ⟨_, h⟩ | ⟨_, h⟩
  · rw [h]
    exact ⟨Guard.refl u X w, Frame.refl w⟩
  · exact tokenTransfer_guard h ha

theorem ownerFeeStep_guard {env : Env} {signers : List Pubkey} {ts : SwapV1} {a : SwapAccounts}
    {pt : Nat} {u : Pubkey} {w w' : World} {X : Pubkey → Prop}
    (h : ownerFeeStep env signers ts a none pt w = .ok w') : Guard u X w w' ∧ Frame w w' := by
  rcases ownerFeeStep_none h with ⟨_, h⟩ | ⟨_, _, _, h⟩
  · rw [h]
    exact ⟨Guard.refl u X w, Frame.refl w⟩
  · exact tokenMintTo_guard h

theorem Guard.and_trans {u : Pubkey} {X : Pubkey → Prop} {a b c : World}
    (h1 : Guard u X a b ∧ Frame a b) (h2 : Guard u X b c ∧ Frame b c) :
    Guard u X a c ∧ Frame a c :=
  ⟨h1.1.trans h1.2 h2.1, h1.2.trans h2.2⟩

/-- Writing the state of a pool does not touch token accounts. -/
theorem write_guard {w : World} {k u : Pubkey} {l l' : List UInt8} (h : (w k).data = .raw l)
    (X : Pubkey → Prop) : Guard u X w (w.setData k (.raw l')) := by
  have hne : ∀ j t, (w j).data = .token t → w.setData k (.raw l') j = w j := by
    intro j t hj
    unfold World.setData
    rw [if_neg]
    intro hh
    rw [hh, h] at hj
    cases hj
  refine ⟨fun j t hj _ => hne j t hj, fun j t hj _ _ => ?_, fun j t hj _ v _ => ?_⟩
  · have := congrArg Account.data (hne j t hj)
    rw [bal_congr this, allowance_congr this]
    omega
  · exact allowance_congr (congrArg Account.data (hne j t hj))

/-- A successful transfer touches no frozen account. -/
theorem tokenTransfer_thawed {env : Env} {signers : List Pubkey} {swap tp src dst a : Pubkey}
    {bump : UInt8} {x : UInt64} {w w' : World}
    (h : tokenTransfer env signers swap tp src dst a bump x w = .ok w') :
    ¬ Frozen w src ∧ ¬ Frozen w dst := by
  unfold tokenTransfer at h
  rw [req_bind] at h
  obtain ⟨_, h⟩ := h
  rw [Except_bind_ok] at h
  obtain ⟨f, _, h⟩ := h
  unfold Token.transfer at h
  rw [Except_bind_ok] at h
  obtain ⟨s, hs, h⟩ := h
  rw [Except_bind_ok] at h
  obtain ⟨d, hd, h⟩ := h
  rw [req_bind] at h
  obtain ⟨hf, _⟩ := h
  rw [Token.getToken_ok] at hs hd
  constructor
  · rintro ⟨t, h1, h2⟩
    rw [tokenAt_some.2 hs.2] at h1
    cases h1
    rw [hf.1] at h2
    cases h2
  · rintro ⟨t, h1, h2⟩
    rw [tokenAt_some.2 hd.2] at h1
    cases h1
    rw [hf.2] at h2
    cases h2

theorem Frozen.keep {w w' : World} {k : Pubkey} (hf : Frame w w') (h : Frozen w k) :
    Frozen w' k := by
  obtain ⟨t, h1, h2⟩ := h
  obtain ⟨t', e1, _, _, e2, _⟩ := hf.token (tokenAt_some.1 h1)
  exact ⟨t', tokenAt_some.2 e1, e2.trans h2⟩

end Processor
end Verif
