import Verif.Lemmas.Processor
import Verif.Lemmas.LinearTrades
import Verif.Props.State
import Verif.Props.Linear

/-
Where an instruction can abort.
-/

namespace Verif
open Spec

theorem nb_bind {α β : Type} {x : Except Err α} {f : α → Except Err β} (hx : x ≠ .error .Panic)
    (hf : ∀ a, x = .ok a → f a ≠ .error .Panic) : (x >>= f) ≠ .error .Panic := by
  cases x with
  | ok a => exact hf a rfl
  | error e => intro h; cases h; exact hx rfl

theorem nb_require {c : Prop} [Decidable c] {e : Err} (he : e ≠ .Panic) :
    require c e ≠ .error .Panic := by
  unfold require
  split
  · nofun
  · intro h; cases h; exact he rfl

theorem nb_req {α : Type} {c : Prop} [Decidable c] {e : Err} {f : Unit → Except Err α}
    (he : e ≠ .Panic) (hf : c → f () ≠ .error .Panic) : (require c e >>= f) ≠ .error .Panic :=
  nb_bind (nb_require he) fun _ h => hf (req_ok.1 h)

theorem nb_optErr {α : Type} {o : Option α} {e : Err} (he : e ≠ .Panic) :
    optErr o e ≠ .error .Panic := by
  cases o with
  | some a => nofun
  | none => intro h; cases h; exact he rfl

namespace Token

theorem nb_getToken {tp k : Pubkey} {w : World} : getToken tp w k ≠ .error .Panic := by
  unfold getToken
  split
  · split <;> nofun
  · nofun

theorem nb_getMint {tp k : Pubkey} {w : World} : getMint tp w k ≠ .error .Panic := by
  unfold getMint
  split
  · split <;> nofun
  · nofun

theorem nb_validateOwner {signed : Pubkey → Bool} {x y : Pubkey} :
    validateOwner signed x y ≠ .error .Panic := by
  unfold validateOwner
  exact nb_req nofun fun _ => nb_require nofun

theorem nb_authorize {signed : Pubkey → Bool} {t : TokenAccount} {a : Pubkey} {x : UInt64} :
    authorize signed t a x ≠ .error .Panic := by
  unfold authorize
  split
  · exact nb_req nofun fun _ => nb_bind (nb_optErr nofun) fun _ _ => nofun
  · exact nb_bind nb_validateOwner fun _ _ => nofun

theorem nb_transfer {tp : Pubkey} {signed : Pubkey → Bool} {src dst a : Pubkey} {x : UInt64}
    {w : World} : transfer tp signed src dst a x w ≠ .error .Panic := by
  unfold transfer
  refine nb_bind nb_getToken fun s _ => nb_bind nb_getToken fun d _ => nb_req nofun fun _ =>
    nb_req nofun fun _ => nb_req nofun fun _ => nb_bind nb_authorize fun _ _ => ?_
  split
  · nofun
  · exact nb_bind (nb_optErr nofun) fun _ _ => nb_bind (nb_optErr nofun) fun _ _ => nofun

theorem nb_mintTo {tp : Pubkey} {signed : Pubkey → Bool} {m dst a : Pubkey} {x : UInt64}
    {w : World} : mintTo tp signed m dst a x w ≠ .error .Panic := by
  unfold mintTo
  exact nb_bind nb_getToken fun d _ => nb_req nofun fun _ => nb_req nofun fun _ =>
    nb_bind nb_getMint fun _ _ => nb_bind (nb_optErr nofun) fun _ _ =>
    nb_bind nb_validateOwner fun _ _ => nb_bind (nb_optErr nofun) fun _ _ =>
    nb_bind (nb_optErr nofun) fun _ _ => nofun

theorem nb_burn {tp : Pubkey} {signed : Pubkey → Bool} {src m a : Pubkey} {x : UInt64}
    {w : World} : burn tp signed src m a x w ≠ .error .Panic := by
  unfold burn
  exact nb_bind nb_getToken fun d _ => nb_bind nb_getMint fun _ _ => nb_req nofun fun _ =>
    nb_req nofun fun _ => nb_req nofun fun _ => nb_bind nb_authorize fun _ _ =>
    nb_bind (nb_optErr nofun) fun _ _ => nb_bind (nb_optErr nofun) fun _ _ => nofun

end Token

namespace Processor

theorem nb_okOr {α : Type} {r : Res α} {e : SwapError} (h : r ≠ .panic) :
    okOr r e ≠ .error .Panic := by
  cases r with
  | ok a => nofun
  | none => nofun
  | panic => exact absurd rfl h

theorem nb_liftSwap {α : Type} {x : Except SwapError α} : liftSwap x ≠ .error .Panic := by
  cases x <;> nofun

theorem nb_toU64 {v : Nat} : toU64 v ≠ .error .Panic := by
  unfold toU64
  split <;> nofun

theorem nb_unpackTokenAccount {w : World} {k tp : Pubkey} :
    unpackTokenAccount w k tp ≠ .error .Panic := by
  unfold unpackTokenAccount
  split
  · nofun
  · split <;> nofun

theorem nb_unpackMint {w : World} {k tp : Pubkey} : unpackMint w k tp ≠ .error .Panic := by
  unfold unpackMint
  split
  · nofun
  · split <;> nofun

theorem nb_cpiSigned {env : Env} {signers : List Pubkey} {k : Pubkey} {b : UInt8} :
    cpiSigned env signers k b ≠ .error .Panic := by
  unfold cpiSigned
  split <;> nofun

theorem nb_tokenTransfer {env : Env} {signers : List Pubkey} {swap tp src dst a : Pubkey}
    {bump : UInt8} {x : UInt64} {w : World} :
    tokenTransfer env signers swap tp src dst a bump x w ≠ .error .Panic := by
  unfold tokenTransfer
  exact nb_req nofun fun _ => nb_bind nb_cpiSigned fun _ _ => Token.nb_transfer

theorem nb_tokenMintTo {env : Env} {signers : List Pubkey} {swap tp m dst a : Pubkey}
    {bump : UInt8} {x : UInt64} {w : World} :
    tokenMintTo env signers swap tp m dst a bump x w ≠ .error .Panic := by
  unfold tokenMintTo
  exact nb_req nofun fun _ => nb_bind nb_cpiSigned fun _ _ => Token.nb_mintTo

theorem nb_tokenBurn {env : Env} {signers : List Pubkey} {swap tp src m a : Pubkey}
    {bump : UInt8} {x : UInt64} {w : World} :
    tokenBurn env signers swap tp src m a bump x w ≠ .error .Panic := by
  unfold tokenBurn
  exact nb_req nofun fun _ => nb_bind nb_cpiSigned fun _ _ => Token.nb_burn

theorem nb_ifPos {env : Env} {signers : List Pubkey} {swap tp src dst a : Pubkey}
    {bump : UInt8} {x : UInt64} {w : World} :
    tokenTransferIfPos env signers swap tp src dst a bump x w ≠ .error .Panic := by
  unfold tokenTransferIfPos
  split
  · exact nb_tokenTransfer
  · nofun

theorem nb_authorityId {env : Env} {k : Pubkey} {b : UInt8} :
    authorityId env k b ≠ .error .Panic := nb_optErr nofun

theorem nb_checkAccounts {env : Env} {w : World} {ts : SwapV1} {swap authority tokenA tokenB
    poolMint tokenProgram : Pubkey} {userA userB fee : Option Pubkey} :
    checkAccounts env w ts swap authority tokenA tokenB poolMint tokenProgram userA userB fee ≠
      .error .Panic := by
  unfold checkAccounts
  exact nb_req nofun fun _ => nb_bind nb_authorityId fun _ _ => nb_req nofun fun _ =>
    nb_req nofun fun _ => nb_req nofun fun _ => nb_req nofun fun _ => nb_req nofun fun _ =>
    nb_req nofun fun _ => nb_req nofun fun _ => nb_require nofun

theorem nb_checkConstraints {f : Fees} {c : Curve} {k : Pubkey} {o : Option SwapConstraints} :
    checkConstraints f c k o ≠ .error .Panic := by
  cases o with
  | none => nofun
  | some sc =>
    unfold checkConstraints
    refine nb_bind (nb_optErr nofun) fun _ _ => nb_req nofun fun _ => nb_bind ?_ fun _ _ => ?_
    · exact nb_require nofun
    · exact nb_require nofun

theorem nb_ownerFeeStep {env : Env} {signers : List Pubkey} {ts : SwapV1} {a : SwapAccounts}
    {x : Nat} {w : World} : ownerFeeStep env signers ts a none x w ≠ .error .Panic := by
  unfold ownerFeeStep
  split
  · exact nb_bind nofun fun _ _ => nb_bind nb_toU64 fun _ _ => nb_tokenMintTo
  · nofun


theorem nb_unpackSwap {w : World} {k : Pubkey} : unpackSwap w k ≠ .error .Panic := by
  unfold unpackSwap
  split
  · exact Props.C25_no_panic _
  · nofun

end Processor

/-! ### Curves -/

open Linear (bind_ne_panic)

theorem bind_panic {α β : Type} {x : Res α} {f : α → Res β} (h : (x >>= f) = .panic) :
    x = .panic ∨ ∃ a, x = .ok a ∧ f a = .panic := by
  cases x with
  | ok a => exact Or.inr ⟨a, rfl, h⟩
  | none => cases h
  | panic => exact Or.inl rfl

theorem calculateFee_np {x n d : Nat} : calculateFee x n d ≠ .panic := by
  unfold calculateFee
  split
  · nofun
  · refine bind_ne_panic cmul_ne_panic fun _ => bind_ne_panic cdiv_ne_panic fun _ => ?_
    split <;> nofun

theorem mapZeroToNone_np {x : Nat} : mapZeroToNone x ≠ .panic := by
  unfold mapZeroToNone
  split <;> nofun

theorem Curve.swap_panic {e : SplEnv} {c : Curve} {x a b : Nat} {dir : TradeDirection} {f : Fees}
    (h : c.swap e x a b dir f = .panic) : ∃ y, y ≤ x ∧ c.swapWithoutFees e y a b dir = .panic := by
  unfold Curve.swap at h
  rcases bind_panic h with h | ⟨_, _, h⟩
  · exact absurd h calculateFee_np
  rcases bind_panic h with h | ⟨_, _, h⟩
  · exact absurd h calculateFee_np
  rcases bind_panic h with h | ⟨_, _, h⟩
  · exact absurd h cadd_ne_panic
  rcases bind_panic h with h | ⟨y, hy, h⟩
  · exact absurd h csub_ne_panic
  rcases bind_panic h with h | ⟨_, _, h⟩
  · refine ⟨y, ?_, h⟩
    unfold csub at hy
    split at hy
    · cases hy; exact Nat.sub_le _ _
    · cases hy
  rcases bind_panic h with h | ⟨_, _, h⟩
  · exact absurd h cadd_ne_panic
  rcases bind_panic h with h | ⟨_, _, h⟩
  · exact absurd h cadd_ne_panic
  rcases bind_panic h with h | ⟨_, _, h⟩
  · exact absurd h csub_ne_panic
  cases h

theorem ConstantPrice.swapWithoutFees_np {p : UInt64} {x : Nat} {dir : TradeDirection} :
    ConstantPrice.swapWithoutFees p x dir ≠ .panic := by
  unfold ConstantPrice.swapWithoutFees
  have fin : ∀ r : Nat × Nat, (do
      let s ← mapZeroToNone r.1
      let d ← mapZeroToNone r.2
      Res.ok (⟨s, d⟩ : SwapWithoutFeesResult)) ≠ .panic := fun _ =>
    bind_ne_panic mapZeroToNone_np fun _ => bind_ne_panic mapZeroToNone_np fun _ => nofun
  cases dir with
  | BtoA => exact bind_ne_panic cmul_ne_panic fun _ => fin _
  | AtoB =>
    refine bind_ne_panic cdiv_ne_panic fun _ => bind_ne_panic crem_ne_panic fun _ => ?_
    split
    · exact bind_ne_panic csub_ne_panic fun _ => fin _
    · exact fin _

theorem ceilDiv_np {h : Bool} {lim a b : Nat} : Spl.ceilDiv h lim a b ≠ .panic := by
  unfold Spl.ceilDiv
  refine bind_ne_panic cdiv_ne_panic fun q => ?_
  split
  · split
    · refine bind_ne_panic cmul_ne_panic fun _ => ?_
      split <;> nofun
    · nofun
  · refine bind_ne_panic crem_ne_panic fun _ => ?_
    split
    · refine bind_ne_panic cadd_ne_panic fun _ => bind_ne_panic cdiv_ne_panic fun _ =>
        bind_ne_panic crem_ne_panic fun _ => ?_
      split
      · exact bind_ne_panic cadd_ne_panic fun _ => nofun
      · nofun
    · nofun

theorem splNew_np {v : Nat} : Spl.new v ≠ .panic := by
  unfold Spl.new
  exact cmul_ne_panic

theorem ConstantPrice.poolTokensToTradingTokens_np {e : SplEnv} {p : UInt64} {x n a b : Nat}
    {rd : RoundDirection} : ConstantPrice.poolTokensToTradingTokens e p x n a b rd ≠ .panic := by
  have hn : ∀ v, v < U128 → ∀ z, Spl.new v = .ok z → Spl.toImprecise z ≠ .panic := by
    intro v hv z hz
    unfold Spl.new cmul at hz
    split at hz
    · cases hz
      unfold Spl.toImprecise
      intro h
      rcases bind_panic h with h | ⟨q, hq, h⟩
      · exact cadd_ne_panic h
      rcases bind_panic h with h | ⟨t, ht, h⟩
      · exact cdiv_ne_panic h
      have e1 : q = v * Spl.ONE + Spl.ONE / 2 := by
        unfold cadd at hq; split at hq
        · cases hq; rfl
        · cases hq
      have e2 : t = v := by
        unfold cdiv at ht; split at ht
        · cases ht
        · cases ht
          rw [e1]
          unfold Spl.ONE
          omega
      unfold asUint at h
      rw [if_pos (by rw [e2]; exact hv)] at h
      cases h
    · cases hz
  unfold ConstantPrice.poolTokensToTradingTokens
  intro h
  rcases bind_panic h with h | ⟨nv, hnv, h⟩
  · revert h
    unfold ConstantPrice.normalizedValue
    refine bind_ne_panic cmul_ne_panic fun _ => ?_
    split
    · exact bind_ne_panic cdiv_ne_panic fun _ => bind_ne_panic cdiv_ne_panic fun _ =>
        bind_ne_panic cadd_ne_panic fun _ => splNew_np
    · exact bind_ne_panic cadd_ne_panic fun _ => bind_ne_panic cdiv_ne_panic fun _ => splNew_np
  rcases bind_panic h with h | ⟨_, _, h⟩
  · unfold ConstantPrice.normalizedValue at hnv
    rw [Res.bind_eq_ok] at hnv
    obtain ⟨bv, hbv, hnv⟩ := hnv
    split at hnv
    · rw [Res.bind_eq_ok] at hnv
      obtain ⟨_, _, hnv⟩ := hnv
      rw [Res.bind_eq_ok] at hnv
      obtain ⟨_, _, hnv⟩ := hnv
      rw [Res.bind_eq_ok] at hnv
      obtain ⟨v, hv, hnv⟩ := hnv
      obtain ⟨hl, ev⟩ := cadd_eq_ok.1 hv
      exact hn v (by rw [ev]; exact hl) _ hnv h
    · rw [Res.bind_eq_ok] at hnv
      obtain ⟨s, hs, hnv⟩ := hnv
      rw [Res.bind_eq_ok] at hnv
      obtain ⟨v, hv, hnv⟩ := hnv
      obtain ⟨hl, es⟩ := cadd_eq_ok.1 hs
      have ev := (cdiv_eq_ok.1 hv).2
      refine hn v ?_ _ hnv h
      rw [ev, es]
      exact lt_of_le_of_lt (Nat.div_le_self _ _) hl
  · cases rd with
    | Floor =>
      exact absurd h (bind_ne_panic cmul_ne_panic fun _ => bind_ne_panic cdiv_ne_panic fun _ =>
        bind_ne_panic cdiv_ne_panic fun _ => bind_ne_panic cdiv_ne_panic fun _ => nofun)
    | Ceiling =>
      exact absurd h (bind_ne_panic cmul_ne_panic fun _ => bind_ne_panic ceilDiv_np fun _ =>
        bind_ne_panic ceilDiv_np fun _ => bind_ne_panic ceilDiv_np fun _ => nofun)

/-- A conversion aborts only when what is converted is worth `2^64` times the pool. -/
theorem ConstantPrice.trading_panic {e : SplEnv} {p : UInt64} {x a b n : Nat} {dir : TradeDirection}
    {rd : RoundDirection} (hn : n < 2 ^ 64)
    (h : ConstantPrice.tradingTokensToPoolTokens e p x a b n dir rd = .panic) :
    2 ^ 64 * worth p.toNat a b < worthOf p.toNat dir x := by
  unfold ConstantPrice.tradingTokensToPoolTokens at h
  simp only [] at h
  have key : ∀ g : Nat, (do
      let tb ← cmul U256 b p.toNat
      let total ← cadd U256 tb a
      match rd with
      | .Floor => do
        let m ← cmul U256 n g
        let q ← cdiv m total
        asUint U128 q
      | .Ceiling => do
        let m ← cmul U256 n g
        let q ← Spl.ceilDiv e.ceilZeroHalf U256 m total
        asUint U128 q.1 : Res Nat) = .panic → 2 ^ 64 * worth p.toNat a b < g := by
    intro g h
    rcases bind_panic h with h | ⟨tb, htb, h⟩
    · exact absurd h cmul_ne_panic
    rcases bind_panic h with h | ⟨t, ht, h⟩
    · exact absurd h cadd_ne_panic
    have et : t = worth p.toNat a b := by
      unfold cmul at htb; unfold cadd at ht
      split at htb
      · cases htb
        split at ht
        · cases ht
          unfold worth
          rw [Nat.mul_comm, Nat.add_comm]
        · cases ht
      · cases htb
    rw [← et]
    have fin : ∀ q : Nat, 2 ^ 128 - 1 ≤ q → 0 < t → q ≤ n * g / t → 2 ^ 64 * t < g := by
      intro q h1 h2 h3
      have h4 : q * t ≤ n * g := (Nat.le_div_iff_mul_le h2).1 h3
      by_contra hc
      have h5 : g ≤ 2 ^ 64 * t := by omega
      have h6 : n * g ≤ (2 ^ 64 - 1) * (2 ^ 64 * t) := Nat.mul_le_mul (by omega) h5
      have h7 : (2 ^ 128 - 1) * t ≤ q * t := Nat.mul_le_mul_right t h1
      norm_num at h6 h7
      omega
    cases rd with
    | Floor =>
      rcases bind_panic h with h | ⟨m, hm, h⟩
      · exact absurd h cmul_ne_panic
      rcases bind_panic h with h | ⟨q, hq, h⟩
      · exact absurd h cdiv_ne_panic
      unfold asUint at h
      split at h
      · cases h
      · rename_i hq2
        unfold cdiv at hq
        unfold cmul at hm
        split at hm
        · cases hm
          split at hq
          · cases hq
          · cases hq
            rename_i ht0
            exact fin _ (by unfold U128 at hq2; omega) (by omega) le_rfl
        · cases hm
    | Ceiling =>
      rcases bind_panic h with h | ⟨m, hm, h⟩
      · exact absurd h cmul_ne_panic
      rcases bind_panic h with h | ⟨q, hq, h⟩
      · exact absurd h ceilDiv_np
      unfold asUint at h
      split at h
      · cases h
      · rename_i hq2
        unfold cmul at hm
        split at hm
        · cases hm
          have hq2' : 2 ^ 128 ≤ q.1 := by unfold U128 at hq2; omega
          unfold Spl.ceilDiv at hq
          rw [Res.bind_eq_ok] at hq
          obtain ⟨d, hd, hq⟩ := hq
          unfold cdiv at hd
          split at hd
          · cases hd
          rename_i ht0
          cases hd
          split at hq
          · split at hq
            · rw [Res.bind_eq_ok] at hq
              obtain ⟨_, _, hq⟩ := hq
              split at hq <;> (cases hq; simp at hq2')
            · cases hq
          · rw [Res.bind_eq_ok] at hq
            obtain ⟨r, _, hq⟩ := hq
            split at hq
            · rw [Res.bind_eq_ok] at hq
              obtain ⟨q', hq', hq⟩ := hq
              have e1 : q' = n * g / t + 1 := by
                unfold cadd at hq'; split at hq'
                · cases hq'; rfl
                · cases hq'
              rw [Res.bind_eq_ok] at hq
              obtain ⟨_, _, hq⟩ := hq
              rw [Res.bind_eq_ok] at hq
              obtain ⟨_, _, hq⟩ := hq
              have e2 : q.1 = q' := by
                split at hq
                · rw [Res.bind_eq_ok] at hq
                  obtain ⟨_, _, hq⟩ := hq
                  cases hq; rfl
                · cases hq; rfl
              exact fin (n * g / t) (by omega) (by omega) le_rfl
            · cases hq
              exact fin (n * g / t) (by simp only [] at hq2'; omega) (by omega) le_rfl
        · cases hm
  cases dir with
  | AtoB => exact key x h
  | BtoA =>
    simp only [] at h
    rcases bind_panic h with h | ⟨g, hg, h⟩
    · exact absurd h cmul_ne_panic
    unfold cmul at hg
    split at hg
    · cases hg
      have := key _ h
      unfold worthOf
      simp only []
      rw [Nat.mul_comm p.toNat x]
      exact this
    · cases hg

end Verif
