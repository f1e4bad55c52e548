import Verif.Spec.Amount
import Verif.Lemmas.Serve
import Verif.Lemmas.Report
import Verif.Lemmas.Why
import Verif.Lemmas.AbortRun

/-
Calls of the token program with accounts in order.
-/

namespace Verif
open Spec Processor

theorem Fails.step {P : Err → Prop} {α β : Type} {x : Except Err α} {f : α → Except Err β} {a : α}
    (h : x = .ok a) (hf : Fails P (f a)) : Fails P (x >>= f) := by
  subst h; exact hf

theorem Fails.pass {P : Err → Prop} {α : Type} {c : Prop} [Decidable c] {e : Err}
    {f : Unit → Except Err α} (h : c) (hf : Fails P (f ())) : Fails P (Verif.require c e >>= f) :=
  .step (req_ok.2 h) hf

theorem Spec.Owns.takes {env : Env} {w : World} {k m u : Pubkey} (h : Owns env w k m u) :
    Takes env w k m := by
  obtain ⟨h1, t, h2, h3, h4, _⟩ := h
  exact ⟨h1, t, h2, h3, h4⟩

theorem Spec.Takes.frame {env : Env} {w w' : World} {k m : Pubkey} (h : Takes env w k m)
    (hf : Frame w w') : Takes env w' k m := by
  obtain ⟨h1, t, h2, h3, h4⟩ := h
  obtain ⟨t', g1, g2, _, g4, _⟩ := hf.token_on h2
  exact ⟨(hf k).1.trans h1, t', g1, g2.trans h3, g4.trans h4⟩

theorem Spec.Owns.frame {env : Env} {w w' : World} {k m u : Pubkey} (h : Owns env w k m u)
    (hf : Frame w w') : Owns env w' k m u := by
  obtain ⟨h1, t, h2, h3, h4, h5⟩ := h
  obtain ⟨t', g1, g2, g3, g4, _⟩ := hf.token_on h2
  exact ⟨(hf k).1.trans h1, t', g1, g2.trans h3, g4.trans h4, g3.trans h5⟩

theorem Spec.SoleOwner.owns {env : Env} {w : World} {k m u : Pubkey} (h : SoleOwner env w k m u)
    (hz : Thawed w k) : Owns env w k m u := by
  obtain ⟨h1, t, h2, h3, h4, _⟩ := h
  obtain ⟨t', h5, h6⟩ := hz
  rw [tokenAt_some.2 h2] at h5
  cases h5
  exact ⟨h1, t, tokenAt_some.2 h2, h3, h6, h4⟩

/-- Nobody but the derived address owns a vault. -/
theorem Spec.SoleOwner.not_owns {env : Env} {w : World} {k m n u x : Pubkey}
    (h : SoleOwner env w k n x) (hu : u ≠ x) : ¬ Owns env w k m u := by
  rintro ⟨_, t, ht, _, _, h2⟩
  obtain ⟨_, t', ht', _, hx, _⟩ := h
  rw [tokenAt_some.2 ht'] at ht
  cases ht
  exact hu (h2.symm.trans hx)

section
variable {P : Err → Prop} (hI : P (.token .InsufficientFunds)) (hO : P (.token .Overflow))
include hI

theorem fails_allowed {signed : Pubkey → Bool} {t : TokenAccount} {a : Pubkey} {x : UInt64}
    (hs : signed a = true) (ho : t.owner = a) : Fails P (Token.authorize signed t a x) := by
  unfold Token.authorize
  split
  · exact .pass hs (.bind (.optErr (Or.inr hI)) fun _ _ => .ok)
  · refine .step (a := ()) ?_ .ok
    unfold Token.validateOwner
    rw [req_bind, req_ok]
    exact ⟨ho, hs⟩

include hO
variable {env : Env} {signers : List Pubkey} {swap pda : Pubkey} {bump : UInt8}
  (hp : env.createPda swap bump = some pda)
include hp

theorem fails_pay {src dst a m tp : Pubkey} {x : UInt64} {w : World} (htp : tp = env.tokenProgramId)
    (ha : a ∈ signers ∨ a = pda) (h1 : Owns env w src m a) (h2 : Takes env w dst m) :
    Fails P (tokenTransfer env signers swap tp src dst a bump x w) := by
  obtain ⟨f, hf, hs⟩ := cpiSigned_iff (signers := signers) hp
  obtain ⟨k1, s, k2, k3, k4, k5⟩ := h1
  obtain ⟨l1, d, l2, l3, l4⟩ := h2
  unfold tokenTransfer
  refine .pass htp (.step hf ?_)
  unfold Token.transfer
  refine .step (Token.getToken_ok.2 ⟨k1, tokenAt_some.1 k2⟩)
    (.step (Token.getToken_ok.2 ⟨l1, tokenAt_some.1 l2⟩) (.pass ⟨k4, l4⟩ (.req hI fun _ =>
      .pass (k3.trans l3.symm) (.bind (fails_allowed hI ((hs a).2 ha) k5) fun _ _ => ?_))))
  split
  · exact .ok
  · exact .bind (.optErr (Or.inr hI)) fun _ _ => .bind (.optErr (Or.inr hO)) fun _ _ => .ok

theorem fails_payPos {src dst a m tp : Pubkey} {x : UInt64} {w : World}
    (htp : tp = env.tokenProgramId) (ha : a ∈ signers ∨ a = pda) (h1 : Owns env w src m a)
    (h2 : Takes env w dst m) :
    Fails P (tokenTransferIfPos env signers swap tp src dst a bump x w) := by
  unfold tokenTransferIfPos
  split
  · exact fails_pay hI hO hp htp ha h1 h2
  · exact .ok

omit hI in
theorem fails_issue {dst a m tp : Pubkey} {x : UInt64} {w : World} (htp : tp = env.tokenProgramId)
    (ha : a ∈ signers ∨ a = pda) (h1 : SoleMinter env w m a) (h2 : Takes env w dst m) :
    Fails P (tokenMintTo env signers swap tp m dst a bump x w) := by
  obtain ⟨f, hf, hs⟩ := cpiSigned_iff (signers := signers) hp
  obtain ⟨l1, d, l2, l3, l4⟩ := h2
  obtain ⟨k1, n, k2, k3, _⟩ := h1
  unfold tokenMintTo
  refine .pass htp (.step hf ?_)
  unfold Token.mintTo
  refine .step (Token.getToken_ok.2 ⟨l1, tokenAt_some.1 l2⟩) (.pass l4 (.pass l3
    (.step (Token.getMint_ok.2 ⟨k1, k2⟩) (.step (optErr_ok.2 k3) (.step (a := ()) ?_
      (.bind (.optErr (Or.inr hO)) fun _ _ => .bind (.optErr (Or.inr hO)) fun _ _ => .ok))))))
  unfold Token.validateOwner
  rw [req_bind, req_ok]
  exact ⟨rfl, (hs a).2 ha⟩

theorem fails_destroy {src a m n tp : Pubkey} {x : UInt64} {w : World} (htp : tp = env.tokenProgramId)
    (ha : a ∈ signers ∨ a = pda) (h1 : Owns env w src m a) (h2 : SoleMinter env w m n) :
    Fails P (tokenBurn env signers swap tp src m a bump x w) := by
  obtain ⟨f, hf, hs⟩ := cpiSigned_iff (signers := signers) hp
  obtain ⟨k1, s, k2, k3, k4, k5⟩ := h1
  obtain ⟨l1, d, l2, _⟩ := h2
  unfold tokenBurn
  refine .pass htp (.step hf ?_)
  unfold Token.burn
  exact .step (Token.getToken_ok.2 ⟨k1, tokenAt_some.1 k2⟩) (.step (Token.getMint_ok.2 ⟨l1, l2⟩)
    (.pass k4 (.req hI fun _ => .pass k3 (.bind (fails_allowed hI ((hs a).2 ha) k5) fun _ _ =>
      .bind (.optErr (Or.inr hI)) fun _ _ => .bind (.optErr (Or.inr hO)) fun _ _ => .ok))))

end

theorem fails_calc {P : Err → Prop} (hP : P .Panic) {α : Type} {r : Res α} {e : SwapError}
    (he : P (.swap e)) : Fails P (okOr r e) := by
  cases r with
  | ok a => exact .ok
  | none => exact .error he
  | panic => exact .error hP

theorem fails_conv {P : Err → Prop} (h : P (.swap .ConversionFailure)) {v : Nat} :
    Fails P (toU64 v) := by
  unfold toU64
  split
  · exact .ok
  · exact .error h

/-- Pool tokens for something the pool holds are no more than there are, or one. -/
theorem ConstantPrice.trading_le {e : SplEnv} {p : UInt64} {x A B n q : Nat} {dir : TradeDirection}
    (hw : worthOf p.toNat dir x ≤ worth p.toNat A B)
    (h : tradingTokensToPoolTokens e p x A B n dir .Ceiling = .ok q) : q ≤ max 1 n := by
  have key : ∃ given tb total m q' d, given = worthOf p.toNat dir x ∧ cmul U256 B p.toNat = .ok tb ∧
      cadd U256 tb A = .ok total ∧ cmul U256 n given = .ok m ∧
      Spl.ceilDiv e.ceilZeroHalf U256 m total = .ok (q', d) ∧ asUint U128 q' = .ok q := by
    unfold tradingTokensToPoolTokens at h
    cases dir
    all_goals
      simp only [Res.bind_eq_ok] at h
      obtain ⟨given, hg, tb, htb, total, ht, m, hm, ⟨q', d⟩, hq, h⟩ := h
      refine ⟨given, tb, total, m, q', d, ?_, htb, ht, hm, hq, h⟩
    · exact (Res.ok.inj hg).symm
    · rw [(cmul_eq_ok.1 hg).2, Nat.mul_comm]; rfl
  obtain ⟨given, tb, total, m, q', d, eg, htb, ht, hm, hq, h⟩ := key
  have e1 := (cmul_eq_ok.1 htb).2
  have e2 := (cadd_eq_ok.1 ht).2
  have e3 := (cmul_eq_ok.1 hm).2
  have e4 : q = q' := by
    unfold asUint at h
    split at h
    · exact (Res.ok.inj h).symm
    · cases h
  have et : total = worth p.toNat A B := by
    unfold worth
    rw [e2, e1, Nat.mul_comm]
    omega
  subst e4
  obtain ⟨hb, hc⟩ := ceilDiv_ok hq
  rcases hc with ⟨_, _, h1, _⟩ | ⟨_, _, _, h4, _⟩
  · omega
  · have hle : m ≤ n * total := by
      rw [e3]
      exact Nat.mul_le_mul_left n (by omega)
    have := Nat.lt_of_mul_lt_mul_right (lt_of_lt_of_le h4 hle)
    omega

/-- The pool tokens minted as the owner's fee of a swap fit into 64 bits. -/
theorem swap_fee_fits {e : SplEnv} {p : UInt64} {x a b n q : Nat} {dir : TradeDirection} {f : Fees}
    {r : SwapResult} (hn : n < 2 ^ 64) (h : (Curve.constantPrice p).swap e x a b dir f = .ok r)
    (hq : (Curve.constantPrice p).withdrawSingle e r.owner_fee (afterA r dir) (afterB r dir) n dir f =
      .ok q) : q < 2 ^ 64 := by
  have ho := swap_owner_le h
  unfold Curve.withdrawSingle at hq
  split at hq
  · cases hq; norm_num
  rw [Res.bind_eq_ok] at hq
  obtain ⟨_, _, hq⟩ := hq
  rw [Res.bind_eq_ok] at hq
  obtain ⟨_, _, hq⟩ := hq
  rw [Res.bind_eq_ok] at hq
  obtain ⟨y, hy, hq⟩ := hq
  have hy : y ≤ r.owner_fee := by
    unfold csub at hy
    split at hy
    · cases hy; exact Nat.sub_le _ _
    · cases hy
  have hq : ConstantPrice.tradingTokensToPoolTokens e p y (afterA r dir) (afterB r dir) n dir .Ceiling =
    .ok q := hq
  have : q ≤ max 1 n := by
    refine ConstantPrice.trading_le ?_ hq
    cases dir with
    | AtoB =>
      unfold worthOf worth afterA
      simp only []
      omega
    | BtoA =>
      unfold worthOf worth afterB
      simp only []
      have := Nat.mul_le_mul_left p.toNat (hy.trans ho)
      omega
  omega

end Verif
