import Verif.Lemmas.Issue
import Verif.Props.Freeze
import Verif.Props.Supply

/-
C96: issuing tokens takes the mint authority; a mint without one is never that of a pool.
-/

namespace Verif
namespace Props
open Spec Token

/-- C96.  Issuing tokens takes the mint authority: whatever happens without its approval, trades,
deposits and new pools included, it stays who it is and the supply does not grow.  (The authorities of
pools act through this program only, so they are left out.) -/
theorem C96_consent (env : Env) (sys : Pubkey) (K S : Pubkey → Prop)
    (hS : ∀ x, S x → ¬ IsPda env K x) (w w' : World) (m : Pubkey) (f : Option Pubkey)
    (hm : Minter env w m f) (hf : ∀ a, f = some a → S a)
    (h : Relation.ReflTransGen (Without env sys K S) w w') :
    Minter env w' m f ∧ supply w' m ≤ supply w m :=
  noIssue_all hS h f hm hf

/-- C96.  A fixed supply is fixed: in any execution a mint without authority stays without one, and its
supply does not grow. -/
theorem C96_fixed (env : Env) (sys : Pubkey) (K : Pubkey → Prop)
    (hst : sys ≠ env.tokenProgramId) (hid : env.programId ≠ env.tokenProgramId) (w w' : World)
    (m : Pubkey) (hm : Minter env w m none) (h : Moves env sys K w w') :
    Minter env w' m none ∧ supply w' m ≤ supply w m :=
  C96_consent env sys K (fun _ => False) (fun _ hx => hx.elim) w w' m none hm
    (fun a e => by cases e) (moves_without hst hid h)

/-- C96.  A mint without authority is never the mint of a pool. -/
theorem C96_not_pool (env : Env) (sys : Pubkey) (K : Pubkey → Prop) (he : EnvOk env K)
    (hst : sys ≠ env.tokenProgramId) (hsp : sys ≠ env.programId) (w0 w : World)
    (h0 : NoPools env w0) (hc : Clean env sys K w0) (m : Pubkey) (hm : Minter env w0 m none)
    (h : Moves env sys K w0 w) (k : Pubkey) (s : SwapV1) (hp : PoolAt env w k s) :
    s.pool_mint ≠ m := by
  rintro rfl
  obtain ⟨pda, hcu⟩ := C35_custody env K he w
    (C66_executions env sys K he hst hsp w0 w h0 hc h).1 k s hp
  obtain ⟨_, q, h2, h3, _⟩ := hcu.minter
  obtain ⟨⟨_, q', g2, g3⟩, _⟩ := C96_fixed env sys K hst he.ids w0 w s.pool_mint hm h
  rw [h2] at g2
  cases g2
  rw [h3] at g3
  cases g3

/-- C96.  The mint of wrapped SOL has no authority.  So it is never the mint of a pool, and pool tokens
add up to their supply without exception (C73). -/
theorem C96_pool_tokens (env : Env) (sys : Pubkey) (K : Pubkey → Prop) (he : EnvOk env K)
    (hst : sys ≠ env.tokenProgramId) (hsp : sys ≠ env.programId) (w0 w : World)
    (h0 : NoPools env w0) (hc : Clean env sys K w0) (hm : Minter env w0 nativeMint none)
    (h : Moves env sys K w0 w) (k : Pubkey) (s : SwapV1) (hp : PoolAt env w k s)
    (ha : Accounted env w0 s.pool_mint) : Accounted env w s.pool_mint :=
  C73_accounted env sys K he hst w0 w h s.pool_mint
    (C96_not_pool env sys K he hst hsp w0 w h0 hc nativeMint hm h k s hp) ha

/-! ### The hypotheses are met -/

/-- 62 burns 7 tokens of mint 5 and does not get 50 to issue new ones. -/
example : ∃ w, (TokenInstr.burn (Sample.key 6) (Sample.key 5) (Sample.key 62) 7).exec
    Sample.env.tokenProgramId [Sample.key 62] icy = .ok w ∧ supply icy (Sample.key 5) = 50 ∧
    supply w (Sample.key 5) = 43 ∧ Minter Sample.env w (Sample.key 5) (some (Sample.key 50)) ∧
    ∀ w', Relation.ReflTransGen (Without Sample.env (Sample.key 0) samplePools (· = Sample.key 50))
      w w' → supply w' (Sample.key 5) ≤ 43 := by
  obtain ⟨w, hw⟩ := of_isOk (x := (TokenInstr.burn (Sample.key 6) (Sample.key 5) (Sample.key 62)
    7).exec Sample.env.tokenProgramId [Sample.key 62] icy) (by decide +kernel)
  have hn : ∀ x, x = Sample.key 50 → ¬ Consents Sample.env icy [Sample.key 62] x := by
    rintro x rfl (⟨b, h, _⟩ | ⟨_, h⟩)
    · exact absurd h.1 (by decide +kernel)
    · revert h; decide
  have h1 := (C96_consent Sample.env (Sample.key 0) samplePools (· = Sample.key 50)
    (fun x hx => hx ▸ user) icy w (Sample.key 5) (some (Sample.key 50))
    ⟨by decide +kernel, ⟨some (Sample.key 50), 50, some (Sample.key 60)⟩, by decide +kernel, rfl⟩
    (fun a e => (Option.some.inj e).symm) (.single (.token _ _ user62 hn hw))).1
  have h2 : supply w (Sample.key 5) = 43 := by
    have e : (match (TokenInstr.burn (Sample.key 6) (Sample.key 5) (Sample.key 62) 7).exec
        Sample.env.tokenProgramId [Sample.key 62] icy with
      | .ok w => supply w (Sample.key 5) | .error _ => 0) = 43 := by decide +kernel
    rw [hw] at e
    exact e
  refine ⟨w, hw, by decide +kernel, h2, h1, fun w' h => ?_⟩
  rw [← h2]
  exact (C96_consent Sample.env (Sample.key 0) samplePools (· = Sample.key 50)
    (fun x hx => hx ▸ user) w w' (Sample.key 5) _ h1 (fun a e => (Option.some.inj e).symm) h).2

/-- 50 can issue tokens, 62 cannot. -/
example : isOk ((TokenInstr.mintTo (Sample.key 5) (Sample.key 8) (Sample.key 50) 7).exec
      Sample.env.tokenProgramId [Sample.key 50] icy) = true ∧
    isOk ((TokenInstr.mintTo (Sample.key 5) (Sample.key 8) (Sample.key 50) 7).exec
      Sample.env.tokenProgramId [Sample.key 62] icy) = false ∧
    isOk ((TokenInstr.setAuthority (Sample.key 5) .MintTokens (Sample.key 62)
      (some (Sample.key 62))).exec Sample.env.tokenProgramId [Sample.key 62] icy) = false := by
  decide +kernel

/-- The sample ledger with wrapped SOL on it. -/
def solStart : World := fun j =>
  if j = nativeMint then ⟨Sample.key 101, .mint ⟨none, 0, none⟩⟩ else Sample.start j

theorem solStart_noPools : NoPools Sample.env solStart := by
  intro k s h
  by_cases e : k = nativeMint
  · rw [e] at h
    exact absurd h.1 (by decide +kernel)
  · have e' : solStart k = Sample.start k := if_neg e
    unfold PoolAt at h
    rw [e'] at h
    exact sample_start k s h

theorem solStart_clean : Clean Sample.env (Sample.key 0) samplePools solStart := by
  rintro x ⟨k, b, hk, h⟩
  unfold Sample.env at h
  simp only [] at h
  split at h
  · rw [← Option.some.inj h]
    rcases hk with rfl | rfl <;> decide +kernel
  · cases h

theorem solStart_native : Minter Sample.env solStart nativeMint none :=
  ⟨by decide +kernel, ⟨none, 0, none⟩, by decide +kernel, rfl⟩

/-- Pool 2 comes into being on it, and its tokens add up. -/
example : ∃ w s, Moves Sample.env (Sample.key 0) samplePools solStart w ∧
    PoolAt Sample.env w (Sample.key 2) s ∧ s.pool_mint ≠ nativeMint ∧
    Minter Sample.env w nativeMint none ∧ supply w nativeMint ≤ 0 ∧
    supply w s.pool_mint = 1000000000 ∧ Accounted Sample.env w s.pool_mint := by
  obtain ⟨w, hw⟩ := of_isOk (x := exec Sample.env [Sample.key 1, Sample.key 2, Sample.key 50] Sample.initPrice
      solStart)
    (by decide +kernel)
  have hm : Moves Sample.env (Sample.key 0) samplePools solStart w :=
    .single (.instr _ Sample.initPrice (Or.inr rfl) sample_signers hw)
  have e : (match exec Sample.env [Sample.key 1, Sample.key 2, Sample.key 50] Sample.initPrice
      solStart with
    | .ok w => decide ((w (Sample.key 2)).owner = Sample.env.programId) &&
      (match (w (Sample.key 2)).data with
        | .raw l => (match SwapVersion.unpack l with
          | .ok s => decide (s.pool_mint = Sample.key 15)
          | .error _ => false)
        | _ => false) && decide (supply w (Sample.key 15) = 1000000000)
    | .error _ => false) = true := by decide +kernel
  rw [hw] at e
  simp only [Bool.and_eq_true, decide_eq_true_eq] at e
  obtain ⟨⟨e1, e2⟩, e3⟩ := e
  split at e2
  · rename_i l hl
    split at e2
    · rename_i s hs
      have hp : PoolAt Sample.env w (Sample.key 2) s := ⟨e1, l, hl, hs⟩
      have e4 := of_decide_eq_true e2
      obtain ⟨f1, f2⟩ := C96_fixed Sample.env (Sample.key 0) samplePools (by decide) (by decide)
        solStart w nativeMint solStart_native hm
      refine ⟨w, s, hm, hp, C96_not_pool Sample.env (Sample.key 0) samplePools sample_ok (by decide)
        (by decide) solStart w solStart_noPools solStart_clean nativeMint solStart_native hm _ _ hp,
        f1, f2.trans (by decide +kernel), by rw [e4]; exact e3, C96_pool_tokens Sample.env
        (Sample.key 0) samplePools sample_ok (by decide) (by decide) solStart w solStart_noPools
        solStart_clean solStart_native hm _ _ hp ?_⟩
      rw [e4]
      refine C73_fresh _ _ _ (by decide +kernel) fun k => ?_
      by_cases ek : k = nativeMint
      · rw [ek]; decide +kernel
      · have e' : solStart k = Sample.start k := if_neg ek
        rw [e']
        exact ledger_all (P := fun a => held Sample.env (Sample.key 15) a = 0) rfl Sample.accounts
          (by decide +kernel) k
    · cases e2
  · cases e2

end Props
end Verif
