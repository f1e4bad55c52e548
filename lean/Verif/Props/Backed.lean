import Verif.Props.Chain
import Verif.Props.Steep

/-
C60 on chain: what is paid in stands behind what is out, for steep curves with any parameters.
-/

namespace Verif
namespace Props
open Spec Processor
open Linear hiding price

/-- C60 for steep curves over whole executions: after a linear pool has been initialised, whatever happens
afterwards, as long as vault B is not emptied all but two of the tokens that have left it are covered by
vault A.  Missing from the full claim: curves that are neither steep nor representable (`C60_false`), and
emptying the vault. -/
theorem C60_chain_partial (env : Env) (K : Pubkey → Prop) (he : EnvOk env K) (signers : List Pubkey)
    (a : InitAccounts) (c : LinearPriceCurve) (hst : Steep c) (w0 w1 w : World)
    (hK : K a.swap) (hinit : exec env signers (.initLinearPrice a c) w0 = .ok w1)
    (h : Relation.ReflTransGen (fun u v => Step env K u v ∧ bal v a.tokenB ≠ 0) w1 w)
    (k : Nat) (hout : bal w a.tokenB + (k + 2 : Nat) = bal w0 a.tokenB) :
    cost c k ≤ bal w a.tokenA := by
  obtain ⟨s, p, hp, hc, hcf, hl, hf, ea, eb, hv, hA, hB⟩ := linear_init he hK hinit
  have key : PoolAt env w a.swap s ∧ Custody env w a.swap s p ∧
      HistoryNonEmpty c (nbal w1 s.token_a, nbal w1 s.token_b) (nbal w s.token_a, nbal w s.token_b) := by
    clear hout
    induction h with
    | refl => exact ⟨hp, hc, .refl⟩
    | tail _ hstep ih =>
      obtain ⟨i1, i2, i3⟩ := ih
      have := step_pool i1 hstep.1
      refine ⟨poolAt_congr this.1 this.2 i1, i2.step hK hstep.1,
        i3.tail ⟨linear_step he hK i1 i2 hcf hl hf hstep.1, ?_⟩⟩
      intro e0
      have e2 := hstep.2
      rw [← eb, ← nbal_cast] at e2
      exact e2 (by rw [show nbal _ s.token_b = 0 from e0]; rfl)
  have hist := key.2.2
  rw [ea, eb, hA] at hist
  have n1 := nbal_cast w a.tokenB
  have n2 := nbal_cast w1 a.tokenB
  have := (C60_steep_partial c hv hst 0 _ _ _ (by decide) hist (k + 2) (by omega)).2 k rfl
  rw [← nbal_cast]
  exact_mod_cast this

/-- The curve of the sample pool is steep. -/
example : Steep Sample.lin := by
  unfold Steep slope Spec.price Sample.lin
  simp only [show UInt64.toNat 2 = 2 from rfl, show UInt64.toNat 1 = 1 from rfl,
    show UInt64.toNat 3 = 3 from rfl]
  norm_num

end Props
end Verif
