import Verif.Lemmas.Freeze
import Verif.Props.Consent

/-
C86: pool tokens cannot be frozen.
-/

namespace Verif
namespace Props
open Spec Token

/-- C86.  Freezing and thawing takes the freeze authority: whatever happens without its approval, it
stays who it is, no account in the mint becomes frozen, and a frozen account with tokens in it
(wrapped SOL excepted, which nobody can freeze) does not change at all. -/
theorem C86_consent (env : Env) (sys : Pubkey) (K S : Pubkey → Prop)
    (hst : sys ≠ env.tokenProgramId) (w w' : World) (m : Pubkey) (f : Option Pubkey)
    (hm : Freezer env w m f) (hf : ∀ a, f = some a → S a)
    (h : Relation.ReflTransGen (Without env sys K S) w w') :
    Freezer env w' m f ∧ ∀ x, (FrozenAt env w' x m → FrozenAt env w x m) ∧
      (m ≠ nativeMint → FrozenAt env w x m → 0 < bal w x → w' x = w x) :=
  calm_all hst h f hm hf

theorem moves_without {env : Env} {sys : Pubkey} {K : Pubkey → Prop}
    (hst : sys ≠ env.tokenProgramId) (hid : env.programId ≠ env.tokenProgramId) {w w' : World}
    (h : Moves env sys K w w') :
    Relation.ReflTransGen (Without env sys K (fun _ => False)) w w' := by
  induction h with
  | refl => exact .refl
  | tail _ hm ih =>
    obtain ⟨_, _, hS⟩ := C77_all_steps env sys K hst hid _ _ hm
    exact ih.tail (hS _ fun x hx => hx.elim)

/-- C86.  Nobody can freeze pool tokens: in any execution, an account in the mint of a pool that is
frozen afterwards was frozen before. -/
theorem C86_pool_tokens (env : Env) (sys : Pubkey) (K : Pubkey → Prop) (he : EnvOk env K)
    (hst : sys ≠ env.tokenProgramId) (w w' : World) (hr : Reachable env K w) (k : Pubkey)
    (s : SwapV1) (hp : PoolAt env w k s) (h : Moves env sys K w w') (x : Pubkey)
    (hx : FrozenAt env w' x s.pool_mint) : FrozenAt env w x s.pool_mint := by
  obtain ⟨pda, hc⟩ := C35_custody env K he w hr k s hp
  obtain ⟨h1, q, h2, _, h4⟩ := hc.minter
  exact ((C86_consent env sys K _ hst w w' s.pool_mint none ⟨h1, q, h2, h4⟩
    (fun a e => by cases e)
    (moves_without hst he.ids h)).2 x).1 hx

/-- C86.  A holder's pool tokens stay spendable: whatever happens that neither the holder nor a
delegate of theirs approves of, what they could pay with, or withdraw with, they still can. -/
theorem C86_spendable (env : Env) (sys : Pubkey) (K S : Pubkey → Prop) (he : EnvOk env K)
    (hst : sys ≠ env.tokenProgramId) (w w' : World) (hr : Reachable env K w) (k : Pubkey)
    (s : SwapV1) (hp : PoolAt env w k s) (hS : ∀ x, S x → ¬ IsPda env K x)
    (acc o : Pubkey) (ho : S o) (hd : ∀ d, delegateOf w acc = some d → S d)
    (hk : OwnedBy env w acc s.pool_mint o) (n : Nat) (hn : CanPay env w acc s.pool_mint o n)
    (h : Relation.ReflTransGen (Without env sys K S) w w') :
    CanPay env w' acc s.pool_mint o n := by
  obtain ⟨pda, hc⟩ := C35_custody env K he w hr k s hp
  obtain ⟨h1, q, h2, _, h4⟩ := hc.minter
  obtain ⟨⟨a1, t', a2, a3, a4, _⟩, b1, b2, _⟩ :=
    C77_untouched env sys K S w w' acc s.pool_mint o hS ho hd hk h
  obtain ⟨c1, t, c2, c3, c4, c5, c6, c7⟩ := hn
  refine ⟨a1, t', a2, a3, a4, ?_, ?_, ?_⟩
  · unfold delegateOf at b2
    rw [a2, c2] at b2
    exact fun e => c5 (b2.symm.trans e)
  · cases e : t'.frozen with
    | false => rfl
    | true =>
      obtain ⟨_, u, d1, _, d2⟩ := ((C86_consent env sys K S hst w w' s.pool_mint none
        ⟨h1, q, h2, h4⟩ (fun a e => by cases e) h).2 acc).1 ⟨a1, t', tokenAt_some.1 a2, a3, e⟩
      rw [tokenAt_some.1 c2] at d1
      cases d1
      rw [c6] at d2; cases d2
  · rw [bal_token (tokenAt_some.1 a2), bal_token (tokenAt_some.1 c2)] at b1
    omega

/-! ### The hypotheses are met -/

/-- Mint 5 can be frozen by 60; account 3 is frozen, accounts 6 and 8 are not. -/
def icy : World := Sample.ledger [
  (Sample.key 3, ⟨Sample.key 101, .token ⟨Sample.key 5, Sample.key 62, 40, none, true, 0, none⟩⟩),
  (Sample.key 5, ⟨Sample.key 101, .mint ⟨some (Sample.key 50), 50, some (Sample.key 60)⟩⟩),
  (Sample.key 6, Sample.tok (Sample.key 5) (Sample.key 62) 10),
  (Sample.key 8, Sample.tok (Sample.key 5) (Sample.key 50) 0)]

/-- 62 moves 7 tokens from account 6; account 3 stays frozen, 8 does not become so. -/
example : ∃ w, (TokenInstr.transfer (Sample.key 6) (Sample.key 8) (Sample.key 62) 7).exec
    Sample.env.tokenProgramId [Sample.key 62] icy = .ok w ∧
    Freezer Sample.env w (Sample.key 5) (some (Sample.key 60)) ∧
    w (Sample.key 3) = icy (Sample.key 3) ∧ ¬ FrozenAt Sample.env w (Sample.key 8) (Sample.key 5) := by
  obtain ⟨w, hw⟩ := of_isOk (x := (TokenInstr.transfer (Sample.key 6) (Sample.key 8) (Sample.key 62)
    7).exec Sample.env.tokenProgramId [Sample.key 62] icy) (by decide +kernel)
  have hn : ∀ x, x = Sample.key 60 → ¬ Consents Sample.env icy [Sample.key 62] x := by
    rintro x rfl (⟨b, h, _⟩ | ⟨_, h⟩)
    · exact absurd h.1 (by decide +kernel)
    · revert h; decide
  obtain ⟨h1, h2⟩ := C86_consent Sample.env (Sample.key 0) samplePools (· = Sample.key 60)
    (by decide) icy w (Sample.key 5) (some (Sample.key 60))
    ⟨by decide +kernel, ⟨some (Sample.key 50), 50, some (Sample.key 60)⟩, by decide +kernel, rfl⟩
    (fun a e => (Option.some.inj e).symm) (.single (.token _ _ user62 hn hw))
  refine ⟨w, hw, h1, (h2 _).2 (by decide) ⟨by decide +kernel, ⟨Sample.key 5, Sample.key 62, 40, none, true, 0,
    none⟩, by decide +kernel, rfl, rfl⟩ (by decide +kernel), fun h => ?_⟩
  obtain ⟨_, t, h3, _, h4⟩ := (h2 _).1 h
  have e : (icy (Sample.key 8)).data =
    .token ⟨Sample.key 5, Sample.key 50, 0, none, false, 0, none⟩ := by decide +kernel
  rw [e] at h3
  cases h3; cases h4

/-- 62 can neither freeze account 8 nor thaw account 3, 60 can do both. -/
example : isOk ((TokenInstr.freezeAccount (Sample.key 8) (Sample.key 5) (Sample.key 60)).exec
      Sample.env.tokenProgramId [Sample.key 62] icy) = false ∧
    isOk ((TokenInstr.freezeAccount (Sample.key 8) (Sample.key 5) (Sample.key 60)).exec
      Sample.env.tokenProgramId [Sample.key 60] icy) = true ∧
    isOk ((TokenInstr.thawAccount (Sample.key 3) (Sample.key 5) (Sample.key 62)).exec
      Sample.env.tokenProgramId [Sample.key 62] icy) = false ∧
    isOk ((TokenInstr.thawAccount (Sample.key 3) (Sample.key 5) (Sample.key 60)).exec
      Sample.env.tokenProgramId [Sample.key 60] icy) = true := by decide +kernel

/-- Nobody freezes the pool tokens in account 17, -/
example (w : World) (h : Moves Sample.env (Sample.key 0) samplePools live w) :
    ¬ FrozenAt Sample.env w (Sample.key 17) (Sample.key 15) := by
  intro hx
  obtain ⟨_, t, h1, _, h2⟩ := C86_pool_tokens Sample.env (Sample.key 0) samplePools sample_ok
    (by decide) live w live_reachable _ _ live_pool2 h (Sample.key 17) hx
  have e : (live (Sample.key 17)).data =
    .token ⟨Sample.key 15, Sample.key 50, 1000000000, none, false, 0, none⟩ := by decide +kernel
  rw [e] at h1
  cases h1; cases h2

/-- and as long as 50 does nothing, all of them remain to be withdrawn with. -/
example (w : World) (h : Relation.ReflTransGen
      (Without Sample.env (Sample.key 0) samplePools (· = Sample.key 50)) live w) :
    CanPay Sample.env w (Sample.key 17) (Sample.key 15) (Sample.key 50) 1000000000 := by
  have e : tokenAt live (Sample.key 17) =
    some ⟨Sample.key 15, Sample.key 50, 1000000000, none, false, 0, none⟩ := by decide +kernel
  refine C86_spendable Sample.env (Sample.key 0) samplePools (· = Sample.key 50) sample_ok
    (by decide) live w live_reachable _ _ live_pool2 (fun x hx => hx ▸ user) (Sample.key 17)
    (Sample.key 50) rfl (fun d hd => ?_) ⟨by decide +kernel, _, e, rfl, rfl, rfl⟩ _
    ⟨by decide +kernel, _, e, rfl, rfl, by decide, rfl, by decide⟩ h
  unfold delegateOf at hd
  rw [e] at hd
  cases hd

end Props
end Verif
