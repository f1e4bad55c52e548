import Verif.Spec.Serve
import Verif.Lemmas.Live

/-
Exact conditions for the token operations to succeed.
-/

namespace Verif
open Spec Processor

/-! ### The conditions look at one account only -/

theorem tokenAt_congr {w w' : World} {k : Pubkey} (h : w' k = w k) : tokenAt w' k = tokenAt w k := by
  unfold tokenAt; rw [h]

theorem mintAt_congr {w w' : World} {k : Pubkey} (h : w' k = w k) : mintAt w' k = mintAt w k := by
  unfold mintAt; rw [h]

theorem maySpend_congr {env : Env} {w w' : World} {k m u : Pubkey} {x : Nat} (h : w' k = w k) :
    MaySpend env w' k m u x ↔ MaySpend env w k m u x := by
  unfold MaySpend; rw [h, tokenAt_congr h]

theorem canReceive_congr {env : Env} {w w' : World} {k m : Pubkey} {x : Nat} (h : w' k = w k) :
    CanReceive env w' k m x ↔ CanReceive env w k m x := by
  unfold CanReceive; rw [h, tokenAt_congr h]

theorem Spec.MaySpend.mintOf {env : Env} {w : World} {k m u : Pubkey} {x : Nat}
    (h : MaySpend env w k m u x) : mintOf w k = some m := by
  obtain ⟨_, t, ht, hm, _⟩ := h
  unfold Spec.mintOf; rw [ht, ← hm]; rfl

theorem Spec.MaySpendBoth.mintOf {env : Env} {w : World} {k m u : Pubkey} {x y : Nat}
    (h : MaySpendBoth env w k m u x y) : mintOf w k = some m := by
  obtain ⟨_, t, ht, hm, _⟩ := h
  unfold Spec.mintOf; rw [ht, ← hm]; rfl

theorem Spec.MaySpend.lt {env : Env} {w : World} {k m u : Pubkey} {x : Nat}
    (h : MaySpend env w k m u x) : x < 2 ^ 64 := by
  obtain ⟨_, t, _, _, _, hx, _⟩ := h
  have := t.amount.toNat_lt
  omega

theorem Spec.CanPay.maySpend {env : Env} {w : World} {k m u : Pubkey} {x : Nat}
    (h : CanPay env w k m u x) : MaySpend env w k m u x := by
  obtain ⟨ho, t, ht, hm, hu, hd, hz, hx⟩ := h
  exact ⟨ho, t, ht, hm, hz, hx, fun h => absurd h hd, fun _ => hu⟩

/-- Nobody but the derived address may spend out of a vault. -/
theorem Spec.SoleOwner.not_maySpend {env : Env} {w : World} {k m n u x : Pubkey} {a : Nat}
    (h : SoleOwner env w k n x) (hu : u ≠ x) : ¬ MaySpend env w k m u a := by
  rintro ⟨_, t, ht, _, _, _, _, h2⟩
  obtain ⟨_, t', ht', _, hx, hd, _⟩ := h
  rw [tokenAt_some.2 ht'] at ht
  cases ht
  exact hu ((h2 (by rw [hd]; exact nofun)).symm.trans hx)

theorem mint_ne {w : World} {j k m : Pubkey} {pm : Mint} (hj : Spec.mintOf w j = some m)
    (hk : (w k).data = .mint pm) : j ≠ k := by
  rintro rfl
  unfold Spec.mintOf tokenAt at hj
  rw [hk] at hj
  cases hj

theorem thawed_back {w w' : World} {k : Pubkey} (h : Thawed w' k) (hf : Frame w w') :
    Thawed w k := by
  obtain ⟨t, ht, hz⟩ := h
  obtain ⟨t', h1, _, _, h4, _⟩ := hf.token_inv (tokenAt_some.1 ht)
  exact ⟨t', tokenAt_some.2 h1, by rw [← h4]; exact hz⟩

theorem Spec.MaySpend.thawed {env : Env} {w : World} {k m u : Pubkey} {x : Nat}
    (h : MaySpend env w k m u x) : Thawed w k := by
  obtain ⟨_, t, ht, _, hz, _⟩ := h
  exact ⟨t, ht, hz⟩

theorem mintOf_unique {w : World} {k m n : Pubkey} (h : Spec.mintOf w k = some m)
    (h' : Spec.mintOf w k = some n) : m = n := by
  rw [h] at h'
  exact Option.some.inj h'

/-! ### Token operations -/

theorem authorize_iff {signed : Pubkey → Bool} {t t' : TokenAccount} {a : Pubkey} {x : UInt64} :
    Token.authorize signed t a x = .ok t' ↔ signed a = true ∧
      ((t.delegate = some a ∧ ∃ rest : UInt64, rest.toNat + x.toNat = t.delegated_amount.toNat ∧
          t' = { t with delegated_amount := rest, delegate := if rest = 0 then none else t.delegate }) ∨
        (t.delegate ≠ some a ∧ t.owner = a ∧ t' = t)) := by
  unfold Token.authorize
  split
  · rename_i hd
    rw [req_bind, Except_bind_ok]
    constructor
    · rintro ⟨h1, rest, h2, h3⟩
      rw [optErr_ok, checkedSub64_some] at h2
      exact ⟨h1, Or.inl ⟨hd, rest, h2.2, (Except.ok.inj h3).symm⟩⟩
    · rintro ⟨h1, ⟨_, rest, h2, h3⟩ | ⟨h2, _⟩⟩
      · refine ⟨h1, rest, ?_, by rw [h3]⟩
        rw [optErr_ok, checkedSub64_some]
        omega
      · exact absurd hd h2
  · rename_i hd
    unfold Token.validateOwner
    rw [Except_bind_ok]
    constructor
    · rintro ⟨_, h1, h2⟩
      rw [req_bind, req_ok] at h1
      exact ⟨h1.2, Or.inr ⟨hd, h1.1, (Except.ok.inj h2).symm⟩⟩
    · rintro ⟨h1, ⟨h2, _⟩ | ⟨_, h2, h3⟩⟩
      · exact absurd h2 hd
      · exact ⟨(), req_bind.2 ⟨h2, req_ok.2 h1⟩, by rw [h3]⟩

theorem authorize_ex {signed : Pubkey → Bool} {t : TokenAccount} {a : Pubkey} {x : UInt64} :
    (∃ t', Token.authorize signed t a x = .ok t') ↔ signed a = true ∧
      (t.delegate = some a → x.toNat ≤ t.delegated_amount.toNat) ∧
      (t.delegate ≠ some a → t.owner = a) := by
  constructor
  · rintro ⟨t', h⟩
    obtain ⟨h1, ⟨h2, rest, h3, _⟩ | ⟨h2, h3, _⟩⟩ := authorize_iff.1 h
    · exact ⟨h1, fun _ => by omega, fun g => absurd h2 g⟩
    · exact ⟨h1, fun g => absurd g h2, fun _ => h3⟩
  · rintro ⟨h1, h2, h3⟩
    by_cases hd : t.delegate = some a
    · obtain ⟨rest, hr⟩ := checkedSub64_of (h2 hd)
      exact ⟨_, authorize_iff.2 ⟨h1, Or.inl ⟨hd, rest, (checkedSub64_some.1 hr).2, rfl⟩⟩⟩
    · exact ⟨t, authorize_iff.2 ⟨h1, Or.inr ⟨hd, h3 hd, rfl⟩⟩⟩

theorem transfer_iff {env : Env} {signed : Pubkey → Bool} {src dst a : Pubkey} {x : UInt64}
    {w w' : World} (hne : src ≠ dst) :
    Token.transfer env.tokenProgramId signed src dst a x w = .ok w' ↔
      ∃ s d s' sa da, (w src).owner = env.tokenProgramId ∧ (w src).data = .token s ∧
        (w dst).owner = env.tokenProgramId ∧ (w dst).data = .token d ∧
        s.frozen = false ∧ d.frozen = false ∧ x.toNat ≤ s.amount.toNat ∧ s.mint = d.mint ∧
        Token.authorize signed s a x = .ok s' ∧ sa.toNat + x.toNat = s.amount.toNat ∧
        da.toNat = d.amount.toNat + x.toNat ∧
        w' = (w.setData src (.token { s' with amount := sa })).setData dst
          (.token { d with amount := da }) := by
  unfold Token.transfer
  constructor
  · intro h
    rw [Except_bind_ok] at h
    obtain ⟨s, h1, h⟩ := h
    rw [Except_bind_ok] at h
    obtain ⟨d, h2, h⟩ := h
    rw [req_bind, req_bind, req_bind] at h
    obtain ⟨h3, h4, h5, h⟩ := h
    rw [Except_bind_ok] at h
    obtain ⟨s', h6, h⟩ := h
    rw [if_neg hne, Except_bind_ok] at h
    obtain ⟨sa, h7, h⟩ := h
    rw [Except_bind_ok] at h
    obtain ⟨da, h8, h⟩ := h
    rw [optErr_ok, checkedSub64_some] at h7
    rw [optErr_ok, checkedAdd64_some] at h8
    obtain ⟨h1a, h1b⟩ := Token.getToken_ok.1 h1
    obtain ⟨h2a, h2b⟩ := Token.getToken_ok.1 h2
    exact ⟨s, d, s', sa, da, h1a, h1b, h2a, h2b, h3.1, h3.2, UInt64.le_iff_toNat_le.1 h4, h5, h6,
      h7.2, h8, (Except.ok.inj h).symm⟩
  · rintro ⟨s, d, s', sa, da, h1, h2, h3, h4, h5, h6, h7, h8, h9, h10, h11, h12⟩
    rw [Except_bind_ok]
    refine ⟨s, Token.getToken_ok.2 ⟨h1, h2⟩, ?_⟩
    rw [Except_bind_ok]
    refine ⟨d, Token.getToken_ok.2 ⟨h3, h4⟩, ?_⟩
    rw [req_bind, req_bind, req_bind]
    refine ⟨⟨h5, h6⟩, UInt64.le_iff_toNat_le.2 h7, h8, ?_⟩
    rw [Except_bind_ok]
    refine ⟨s', h9, ?_⟩
    rw [if_neg hne, Except_bind_ok]
    refine ⟨sa, optErr_ok.2 (checkedSub64_some.2 ⟨h7, h10⟩), ?_⟩
    rw [Except_bind_ok]
    exact ⟨da, optErr_ok.2 (checkedAdd64_some.2 h11), by rw [h12]⟩

theorem transfer_ex {env : Env} {signed : Pubkey → Bool} {src dst a : Pubkey} {x : UInt64}
    {w : World} (hne : src ≠ dst) :
    (∃ w', Token.transfer env.tokenProgramId signed src dst a x w = .ok w') ↔ signed a = true ∧
      ∃ m, MaySpend env w src m a x.toNat ∧ CanReceive env w dst m x.toNat := by
  constructor
  · rintro ⟨w', h⟩
    obtain ⟨s, d, s', sa, da, h1, h2, h3, h4, h5, h6, h7, h8, h9, h10, h11, _⟩ := (transfer_iff hne).1 h
    obtain ⟨g1, g2, g3⟩ := authorize_ex.1 ⟨s', h9⟩
    have := da.toNat_lt
    exact ⟨g1, s.mint, ⟨h1, s, tokenAt_some.2 h2, rfl, h5, h7, g2, g3⟩,
      ⟨h3, d, tokenAt_some.2 h4, h8.symm, h6, by omega⟩⟩
  · rintro ⟨g1, m, ⟨h1, s, h2, h3, h4, h5, h6, h7⟩, ⟨k1, d, k2, k3, k4, k5⟩⟩
    obtain ⟨s', hs'⟩ := authorize_ex.2 ⟨g1, h6, h7⟩
    obtain ⟨sa, hsa⟩ := checkedSub64_of h5
    obtain ⟨da, hda⟩ := checkedAdd64_of k5
    exact ⟨_, (transfer_iff hne).2 ⟨s, d, s', sa, da, h1, tokenAt_some.1 h2, k1, tokenAt_some.1 k2,
      h4, k4, h5, h3.trans k3.symm, hs', (checkedSub64_some.1 hsa).2, checkedAdd64_some.1 hda, rfl⟩⟩

/-- What is left in an account after a payment. -/
theorem transfer_rest {env : Env} {signed : Pubkey → Bool} {src dst a m : Pubkey} {x : UInt64}
    {w w' : World} {y : Nat} (hne : src ≠ dst) (hx : 0 < x.toNat)
    (h : Token.transfer env.tokenProgramId signed src dst a x w = .ok w') :
    MaySpend env w' src m a y ↔ MaySpendBoth env w src m a x.toNat y := by
  obtain ⟨s, d, s', sa, da, h1, h2, h3, h4, h5, h6, h7, h8, h9, h10, h11, h12⟩ :=
    (transfer_iff hne).1 h
  have ho : (w' src).owner = env.tokenProgramId := by
    rw [h12, setData_owner, setData_owner]; exact h1
  have hd : tokenAt w' src = some { s' with amount := sa } := by
    rw [tokenAt_some, h12, setData_data, if_neg hne, setData_data, if_pos rfl]
  have hz : ∀ r : UInt64, r = 0 ↔ r.toNat = 0 := fun r => by
    rw [← UInt64.toNat_inj]; rfl
  unfold MaySpend MaySpendBoth
  rw [hd, tokenAt_some.2 h2]
  obtain ⟨_, ⟨g1, rest, g2, g3⟩ | ⟨g1, g2, g3⟩⟩ := authorize_iff.1 h9
  · constructor
    · rintro ⟨_, t, e, q1, q2, q3, q4, q5⟩
      cases e
      rw [g3] at q1 q2 q4 q5
      simp only [] at q1 q2 q3 q4 q5
      refine ⟨h1, s, rfl, q1, q2, by omega, ?_, ?_, fun g => absurd g1 g⟩
      · intro _ hh
        have : rest = 0 := (hz rest).2 (by omega)
        exact q5 (by rw [if_pos this]; exact nofun)
      · intro _ hh
        have : rest ≠ 0 := fun e => hh ⟨hx, by have := (hz rest).1 e; omega⟩
        have := q4 (by rw [if_neg this]; exact g1)
        omega
    · rintro ⟨_, t, e, q1, q2, q3, q4, q5, q6⟩
      cases e
      refine ⟨ho, _, rfl, by rw [g3]; exact q1, by rw [g3]; exact q2, by simp only []; omega, ?_, ?_⟩
      · rw [g3]
        simp only []
        intro hh
        have hr : rest ≠ 0 := by
          intro e; rw [if_pos e] at hh; cases hh
        have := q5 g1 (fun hh => hr ((hz rest).2 (by omega)))
        omega
      · rw [g3]
        simp only []
        intro hh
        have hr : rest = 0 := by
          by_contra e; rw [if_neg e] at hh; exact hh g1
        have := (hz rest).1 hr
        exact q4 g1 ⟨hx, by omega⟩
  · subst g3
    constructor
    · rintro ⟨_, t, e, q1, q2, q3, q4, q5⟩
      cases e
      simp only [] at q1 q2 q3 q4 q5
      exact ⟨h1, _, rfl, q1, q2, by omega, fun g => absurd g g1, fun g => absurd g g1, fun _ => g2⟩
    · rintro ⟨_, t, e, q1, q2, q3, q4, q5, q6⟩
      cases e
      exact ⟨ho, _, rfl, q1, q2, by simp only []; omega, fun g => absurd g g1, fun _ => g2⟩

theorem mintTo_ex {env : Env} {signed : Pubkey → Bool} {mint dst a : Pubkey} {x : UInt64}
    {w : World} :
    (∃ w', Token.mintTo env.tokenProgramId signed mint dst a x w = .ok w') ↔ signed a = true ∧
      CanReceive env w dst mint x.toNat ∧ (w mint).owner = env.tokenProgramId ∧
      ∃ m, mintAt w mint = some m ∧ m.mint_authority = some a ∧ m.supply.toNat + x.toNat < 2 ^ 64 := by
  constructor
  · rintro ⟨w', h⟩
    unfold Token.mintTo at h
    rw [Except_bind_ok] at h
    obtain ⟨d, h1, h⟩ := h
    rw [req_bind, req_bind] at h
    obtain ⟨h2, h3, h⟩ := h
    rw [Except_bind_ok] at h
    obtain ⟨m, h4, h⟩ := h
    rw [Except_bind_ok] at h
    obtain ⟨au, h5, h⟩ := h
    rw [Except_bind_ok] at h
    obtain ⟨_, h6, h⟩ := h
    unfold Token.validateOwner at h6
    rw [req_bind, req_ok] at h6
    rw [Except_bind_ok] at h
    obtain ⟨da, h7, h⟩ := h
    rw [Except_bind_ok] at h
    obtain ⟨ms, h8, h⟩ := h
    rw [optErr_ok, checkedAdd64_some] at h7 h8
    obtain ⟨h1a, h1b⟩ := Token.getToken_ok.1 h1
    obtain ⟨h4a, h4b⟩ := Token.getMint_ok.1 h4
    have := da.toNat_lt
    have := ms.toNat_lt
    exact ⟨h6.2, ⟨h1a, d, tokenAt_some.2 h1b, h3, h2, by omega⟩, h4a, m, mintAt_some.2 h4b,
      by rw [optErr_ok.1 h5, h6.1], by omega⟩
  · rintro ⟨h1, h2, h3, m, h4, h5, h6⟩
    exact mintTo_of h2 h3 h4 h5 h6 h1

theorem burn_ex {env : Env} {signed : Pubkey → Bool} {mint src a : Pubkey} {x : UInt64}
    {w : World} :
    (∃ w', Token.burn env.tokenProgramId signed src mint a x w = .ok w') ↔ signed a = true ∧
      MaySpend env w src mint a x.toNat ∧ (w mint).owner = env.tokenProgramId ∧
      ∃ m, mintAt w mint = some m ∧ x.toNat ≤ m.supply.toNat := by
  unfold Token.burn
  constructor
  · rintro ⟨w', h⟩
    rw [Except_bind_ok] at h
    obtain ⟨s, h1, h⟩ := h
    rw [Except_bind_ok] at h
    obtain ⟨m, h2, h⟩ := h
    rw [req_bind, req_bind, req_bind] at h
    obtain ⟨h3, h4, h5, h⟩ := h
    rw [Except_bind_ok] at h
    obtain ⟨s', h6, h⟩ := h
    rw [Except_bind_ok] at h
    obtain ⟨sa, _, h⟩ := h
    rw [Except_bind_ok] at h
    obtain ⟨ms, h8, _⟩ := h
    rw [optErr_ok, checkedSub64_some] at h8
    obtain ⟨h1a, h1b⟩ := Token.getToken_ok.1 h1
    obtain ⟨h2a, h2b⟩ := Token.getMint_ok.1 h2
    obtain ⟨g1, g2, g3⟩ := authorize_ex.1 ⟨s', h6⟩
    exact ⟨g1, ⟨h1a, s, tokenAt_some.2 h1b, h5, h3, UInt64.le_iff_toNat_le.1 h4, g2, g3⟩, h2a, m,
      mintAt_some.2 h2b, h8.1⟩
  · rintro ⟨h1, ⟨k1, s, k2, k3, k4, k5, k6, k7⟩, h3, m, h4, h5⟩
    obtain ⟨s', hs'⟩ := authorize_ex.2 ⟨h1, k6, k7⟩
    obtain ⟨sa, hsa⟩ := checkedSub64_of k5
    obtain ⟨ms, hms⟩ := checkedSub64_of h5
    refine ⟨(w.setData src (.token { s' with amount := sa })).setData mint
      (.mint { m with supply := ms }), ?_⟩
    · rw [Except_bind_ok]
      refine ⟨s, Token.getToken_ok.2 ⟨k1, tokenAt_some.1 k2⟩, ?_⟩
      rw [Except_bind_ok]
      refine ⟨m, Token.getMint_ok.2 ⟨h3, mintAt_some.1 h4⟩, ?_⟩
      rw [req_bind, req_bind, req_bind]
      refine ⟨k4, UInt64.le_iff_toNat_le.2 k5, k3, ?_⟩
      rw [Except_bind_ok]
      refine ⟨s', hs', ?_⟩
      rw [Except_bind_ok]
      refine ⟨sa, optErr_ok.2 hsa, ?_⟩
      rw [Except_bind_ok]
      exact ⟨ms, optErr_ok.2 hms, rfl⟩

/-! ### Calls of the token program -/

section calls
variable {env : Env} {signers : List Pubkey} {swap pda tp : Pubkey} {bump : UInt8}

theorem cpiSigned_iff (hp : env.createPda swap bump = some pda) :
    ∃ f, cpiSigned env signers swap bump = .ok f ∧ ∀ k, f k = true ↔ k ∈ signers ∨ k = pda := by
  obtain ⟨f, hf, _⟩ := cpiSigned_of (signers := signers) hp
  obtain ⟨pda', hp', h⟩ := cpiSigned_ok hf
  rw [hp] at hp'
  cases hp'
  exact ⟨f, hf, h⟩

theorem tokenTransfer_ex (hp : env.createPda swap bump = some pda) {src dst a : Pubkey} {x : UInt64}
    {w : World} (hne : src ≠ dst) :
    (∃ w', tokenTransfer env signers swap tp src dst a bump x w = .ok w') ↔
      tp = env.tokenProgramId ∧ (a ∈ signers ∨ a = pda) ∧
      ∃ m, MaySpend env w src m a x.toNat ∧ CanReceive env w dst m x.toNat := by
  obtain ⟨f, hf, hs⟩ := cpiSigned_iff (signers := signers) hp
  rw [← hs a, ← transfer_ex hne]
  unfold tokenTransfer
  constructor
  · rintro ⟨w', h⟩
    rw [req_bind, Except_bind_ok] at h
    obtain ⟨h1, f', hf', h⟩ := h
    rw [hf] at hf'
    cases hf'
    exact ⟨h1, w', h⟩
  · rintro ⟨h1, w', h⟩
    refine ⟨w', ?_⟩
    rw [req_bind, Except_bind_ok]
    exact ⟨h1, f, hf, h⟩

theorem tokenTransfer_rest {src dst a m : Pubkey} {x : UInt64} {w w' : World} {y : Nat}
    (hne : src ≠ dst) (hx : 0 < x.toNat)
    (h : tokenTransfer env signers swap tp src dst a bump x w = .ok w') :
    MaySpend env w' src m a y ↔ MaySpendBoth env w src m a x.toNat y := by
  unfold tokenTransfer at h
  rw [req_bind, Except_bind_ok] at h
  obtain ⟨h1, f, _, h⟩ := h
  exact transfer_rest hne hx h

theorem tokenMintTo_ex (hp : env.createPda swap bump = some pda) {mint dst a : Pubkey} {x : UInt64}
    {w : World} :
    (∃ w', tokenMintTo env signers swap tp mint dst a bump x w = .ok w') ↔
      tp = env.tokenProgramId ∧ (a ∈ signers ∨ a = pda) ∧
      CanReceive env w dst mint x.toNat ∧ (w mint).owner = env.tokenProgramId ∧
      ∃ m, mintAt w mint = some m ∧ m.mint_authority = some a ∧ m.supply.toNat + x.toNat < 2 ^ 64 := by
  obtain ⟨f, hf, hs⟩ := cpiSigned_iff (signers := signers) hp
  rw [← hs a, ← mintTo_ex]
  unfold tokenMintTo
  constructor
  · rintro ⟨w', h⟩
    rw [req_bind, Except_bind_ok] at h
    obtain ⟨h1, f', hf', h⟩ := h
    rw [hf] at hf'
    cases hf'
    exact ⟨h1, w', h⟩
  · rintro ⟨h1, w', h⟩
    refine ⟨w', ?_⟩
    rw [req_bind, Except_bind_ok]
    exact ⟨h1, f, hf, h⟩

theorem tokenBurn_ex (hp : env.createPda swap bump = some pda) {mint src a : Pubkey} {x : UInt64}
    {w : World} :
    (∃ w', tokenBurn env signers swap tp src mint a bump x w = .ok w') ↔
      tp = env.tokenProgramId ∧ (a ∈ signers ∨ a = pda) ∧
      MaySpend env w src mint a x.toNat ∧ (w mint).owner = env.tokenProgramId ∧
      ∃ m, mintAt w mint = some m ∧ x.toNat ≤ m.supply.toNat := by
  obtain ⟨f, hf, hs⟩ := cpiSigned_iff (signers := signers) hp
  rw [← hs a, ← burn_ex]
  unfold tokenBurn
  constructor
  · rintro ⟨w', h⟩
    rw [req_bind, Except_bind_ok] at h
    obtain ⟨h1, f', hf', h⟩ := h
    rw [hf] at hf'
    cases hf'
    exact ⟨h1, w', h⟩
  · rintro ⟨h1, w', h⟩
    refine ⟨w', ?_⟩
    rw [req_bind, Except_bind_ok]
    exact ⟨h1, f, hf, h⟩

theorem ifPos_pos {src dst a : Pubkey} {x : UInt64} {w : World} (h : 0 < x.toNat) :
    tokenTransferIfPos env signers swap tp src dst a bump x w =
      tokenTransfer env signers swap tp src dst a bump x w := by
  unfold tokenTransferIfPos
  rw [if_pos (show x > 0 from UInt64.lt_iff_toNat_lt.2 (show (0 : UInt64).toNat < x.toNat from h))]

theorem ifPos_zero {src dst a : Pubkey} {x : UInt64} {w : World} (h : x.toNat = 0) :
    tokenTransferIfPos env signers swap tp src dst a bump x w = .ok w := by
  unfold tokenTransferIfPos
  rw [if_neg]
  intro g
  have g : (0 : UInt64).toNat < x.toNat := UInt64.lt_iff_toNat_lt.1 g
  rw [h] at g
  exact absurd g (Nat.lt_irrefl 0)

/-- A payment out of a vault, if there is anything to pay. -/
theorem ifPos_ex (hp : env.createPda swap bump = some pda) {src dst a : Pubkey} {x : UInt64}
    {w : World} (hne : src ≠ dst) (htp : tp = env.tokenProgramId) (ha : a ∈ signers ∨ a = pda) :
    (∃ w', tokenTransferIfPos env signers swap tp src dst a bump x w = .ok w') ↔
      (0 < x.toNat → ∃ m, MaySpend env w src m a x.toNat ∧ CanReceive env w dst m x.toNat) := by
  rcases Nat.eq_zero_or_pos x.toNat with h | h
  · rw [ifPos_zero h]
    exact ⟨fun _ g => absurd g (by omega), fun _ => ⟨w, rfl⟩⟩
  · rw [ifPos_pos h, tokenTransfer_ex hp hne]
    exact ⟨fun g _ => g.2.2, fun g => ⟨htp, ha, g h⟩⟩

theorem ifPos_same {src dst a : Pubkey} {x : UInt64} {w w' : World}
    (h : tokenTransferIfPos env signers swap tp src dst a bump x w = .ok w') :
    Frame w w' ∧ (∀ k, k ≠ src → (0 < x.toNat → k ≠ dst) → w' k = w k) := by
  rcases tokenTransferIfPos_ok h with ⟨_, rfl⟩ | ⟨h1, h2⟩
  · exact ⟨Frame.refl _, fun _ _ _ => rfl⟩
  · obtain ⟨_, _, _, _, _, hm⟩ := tokenTransfer_ok h2
    exact ⟨hm.frame, fun k h3 h4 => hm.same k h3 (h4 h1)⟩

/-- The fee on a withdrawal, then the burn. -/
theorem feeBurn_ex (hp : env.createPda swap bump = some pda) {src fee mint a : Pubkey}
    {x y : UInt64} {w : World} (hne : 0 < x.toNat → src ≠ fee) :
    (∃ w1 w2, tokenTransferIfPos env signers swap tp src fee a bump x w = .ok w1 ∧
        tokenBurn env signers swap tp src mint a bump y w1 = .ok w2) ↔
      tp = env.tokenProgramId ∧ (a ∈ signers ∨ a = pda) ∧
      MaySpendBoth env w src mint a x.toNat y.toNat ∧
      (0 < x.toNat → CanReceive env w fee mint x.toNat) ∧
      (w mint).owner = env.tokenProgramId ∧
      ∃ m, mintAt w mint = some m ∧ y.toNat ≤ m.supply.toNat := by
  rcases Nat.eq_zero_or_pos x.toNat with h0 | h0
  · have e : MaySpendBoth env w src mint a x.toNat y.toNat ↔ MaySpend env w src mint a y.toNat := by
      unfold MaySpendBoth MaySpend
      rw [h0]
      constructor
      · rintro ⟨h1, t, h2, h3, h4, h5, _, h6, h7⟩
        exact ⟨h1, t, h2, h3, h4, by omega, fun g => by have := h6 g (by omega); omega, h7⟩
      · rintro ⟨h1, t, h2, h3, h4, h5, h6, h7⟩
        exact ⟨h1, t, h2, h3, h4, by omega, fun _ g => absurd g.1 (by omega),
          fun g _ => by have := h6 g; omega, h7⟩
    rw [e]
    constructor
    · rintro ⟨w1, w2, h1, h2⟩
      rw [ifPos_zero h0] at h1
      cases h1
      obtain ⟨g1, g2, g3, g4, g5⟩ := (tokenBurn_ex hp).1 ⟨w2, h2⟩
      exact ⟨g1, g2, g3, fun g => absurd g (by omega), g4, g5⟩
    · rintro ⟨g1, g2, g3, _, g4, g5⟩
      obtain ⟨w2, h2⟩ := (tokenBurn_ex (signers := signers) hp).2 ⟨g1, g2, g3, g4, g5⟩
      exact ⟨w, w2, ifPos_zero h0, h2⟩
  · have hsf := hne h0
    constructor
    · rintro ⟨w1, w2, h1, h2⟩
      rw [ifPos_pos h0] at h1
      obtain ⟨_, _, m, q1, q2⟩ := (tokenTransfer_ex hp hsf).1 ⟨w1, h1⟩
      obtain ⟨g1, g2, g3, g4, pm, g5, g6⟩ := (tokenBurn_ex hp).1 ⟨w2, h2⟩
      have both := (tokenTransfer_rest hsf h0 h1).1 g3
      obtain ⟨_, _, _, _, _, hm⟩ := tokenTransfer_ok h1
      have em : m = mint := by
        have e1 := q1.mintOf
        rw [both.mintOf] at e1
        exact (Option.some.inj e1).symm
      subst em
      obtain ⟨pm', p1, p2⟩ := hm.frame.mint_inv (mintAt_some.1 g5)
      have hs := hm.supply m
      rw [supply_mint p1, supply_mint (mintAt_some.1 g5)] at hs
      exact ⟨g1, g2, both, fun _ => q2, ((hm.frame m).1.symm.trans g4), pm', mintAt_some.2 p1,
        by omega⟩
    · rintro ⟨g1, g2, g3, g4, g5, pm, g6, g7⟩
      have hms : MaySpend env w src mint a x.toNat := by
        obtain ⟨k1, t, k2, k3, k4, k5, k6, k7, k8⟩ := g3
        refine ⟨k1, t, k2, k3, k4, by omega, fun g => ?_, k8⟩
        by_cases hh : 0 < x.toNat ∧ x.toNat = t.delegated_amount.toNat
        · omega
        · have := k7 g hh; omega
      obtain ⟨w1, h1⟩ := (tokenTransfer_ex (signers := signers) hp hsf).2
        ⟨g1, g2, mint, hms, g4 h0⟩
      obtain ⟨_, _, _, _, _, hm⟩ := tokenTransfer_ok h1
      obtain ⟨pm', p1, p2⟩ := hm.frame.mint (mintAt_some.1 g6)
      have hs := hm.supply mint
      rw [supply_mint p1, supply_mint (mintAt_some.1 g6)] at hs
      obtain ⟨w2, h2⟩ := (tokenBurn_ex (signers := signers) hp).2 ⟨g1, g2,
        (tokenTransfer_rest hsf h0 h1).2 g3, (hm.frame mint).1.trans g5, pm', mintAt_some.2 p1,
        by omega⟩
      exact ⟨w1, w2, by rw [ifPos_pos h0]; exact h1, h2⟩

end calls
end Verif
