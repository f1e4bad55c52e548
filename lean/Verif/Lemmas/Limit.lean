import Verif.Lemmas.Live
import Verif.Spec.Limit

/-
Limits are compared once, with a number computed without them.
-/

namespace Verif

open Spec Processor

/-- `g` is cut off by its limits: within them it is `g best`, beyond them it is refused. -/
def Cut {τ L : Type} (best : L) (P : τ → L → Prop) (Q : τ → World → Prop)
    (g : L → Except Err World) : Prop :=
  ∃ T : τ, g best ≠ .error slip ∧ (∀ y, P T y → g y = g best) ∧ (∀ y, ¬ P T y → g y = .error slip) ∧
    ∀ w, g best = .ok w → Q T w

theorem Cut.bind {τ L α : Type} {best : L} {P : τ → L → Prop} {Q : τ → World → Prop}
    {x : Except Err α} {f : α → L → Except Err World} (T0 : τ) (h0 : ∀ y, P T0 y)
    (hx : x ≠ .error slip) (h : ∀ a, x = .ok a → Cut best P Q (f a)) :
    Cut best P Q (fun y => x >>= fun a => f a y) := by
  cases x with
  | error e =>
    refine ⟨T0, fun h => hx (by rw [show e = slip from Except.error.inj h]), fun y _ => rfl,
      fun y hy => absurd (h0 y) hy, fun w hw => ?_⟩
    cases hw
  | ok a => exact h a rfl

theorem Cut.congr {τ L : Type} {best : L} {P : τ → L → Prop} {Q : τ → World → Prop}
    {g g' : L → Except Err World} (h : Cut best P Q g) (e : ∀ y, g' y = g y) : Cut best P Q g' := by
  have : g' = g := funext e
  rwa [this]

/-- A part that does not look at the limits. -/
theorem Cut.const {τ L : Type} {best : L} {P : τ → L → Prop} {Q : τ → World → Prop}
    {x : Except Err World} (T : τ) (h0 : ∀ y, P T y) (hx : x ≠ .error slip)
    (hq : ∀ w, x = .ok w → Q T w) : Cut best P Q (fun _ => x) :=
  ⟨T, hx, fun _ _ => rfl, fun y hy => absurd (h0 y) hy, hq⟩

theorem Cut.require {τ L : Type} {best : L} {P : τ → L → Prop} {Q : τ → World → Prop} {T : τ}
    {c : L → Prop} [∀ y, Decidable (c y)] {x : Except Err World} (hc : ∀ y, P T y ↔ c y)
    (hb : c best) (hx : x ≠ .error slip) (hq : ∀ w, x = .ok w → Q T w) :
    Cut best P Q (fun y => Verif.require (c y) slip >>= fun _ => x) := by
  have good : ∀ y, c y → (Verif.require (c y) slip >>= fun _ => x) = x := by
    intro y hy
    unfold Verif.require
    rw [if_pos hy]
    rfl
  have bad : ∀ y, ¬ c y → (Verif.require (c y) slip >>= fun _ => x) = .error slip := by
    intro y hy
    unfold Verif.require
    rw [if_neg hy]
    rfl
  refine ⟨T, ?_, fun y hy => ?_, fun y hy => ?_, fun w hw => ?_⟩
  · show (Verif.require (c best) slip >>= fun _ => x) ≠ _
    rw [good best hb]
    exact hx
  · show (Verif.require (c y) slip >>= fun _ => x) = (Verif.require (c best) slip >>= fun _ => x)
    rw [good y ((hc y).1 hy), good best hb]
  · exact bad y fun h => hy ((hc y).2 h)
  · have hw' : (Verif.require (c best) slip >>= fun _ => x) = .ok w := hw
    rw [good best hb] at hw'
    exact hq w hw'

/-- One of two limits, checked before the other. -/
theorem Cut.first {best : UInt64 × UInt64} {P1 P2 : Nat → UInt64 → Prop}
    {Q : Nat × Nat → World → Prop} {T : Nat} {c : UInt64 → Prop} [∀ y, Decidable (c y)]
    {f : UInt64 → Except Err World} (hc : ∀ y, P1 T y ↔ c y) (hb : c best.1)
    (h : Cut best.2 P2 (fun S => Q (T, S)) f) :
    Cut best (fun t y => P1 t.1 y.1 ∧ P2 t.2 y.2) Q
      (fun y => Verif.require (c y.1) slip >>= fun _ => f y.2) := by
  obtain ⟨S, h1, h2, h3, h4⟩ := h
  have good : ∀ y : UInt64 × UInt64, c y.1 →
      (Verif.require (c y.1) slip >>= fun _ => f y.2) = f y.2 := by
    intro y hy
    unfold Verif.require
    rw [if_pos hy]
    rfl
  have bad : ∀ y : UInt64 × UInt64, ¬ c y.1 →
      (Verif.require (c y.1) slip >>= fun _ => f y.2) = .error slip := by
    intro y hy
    unfold Verif.require
    rw [if_neg hy]
    rfl
  refine ⟨(T, S), ?_, fun y hy => ?_, fun y hy => ?_, fun w hw => ?_⟩
  · show (Verif.require (c best.1) slip >>= fun _ => f best.2) ≠ _
    rw [good best hb]
    exact h1
  · show (Verif.require (c y.1) slip >>= fun _ => f y.2) =
      (Verif.require (c best.1) slip >>= fun _ => f best.2)
    rw [good y ((hc _).1 hy.1), good best hb]
    exact h2 _ hy.2
  · show (Verif.require (c y.1) slip >>= fun _ => f y.2) = .error slip
    by_cases hy1 : c y.1
    · rw [good y hy1]
      exact h3 _ fun h => hy ⟨(hc _).2 hy1, h⟩
    · exact bad y hy1
  · have hw' : (Verif.require (c best.1) slip >>= fun _ => f best.2) = .ok w := hw
    rw [good best hb] at hw'
    exact h4 w hw'

/-! Nothing else reports a limit not met. -/

theorem require_slip {c : Prop} [Decidable c] {e : Err} (he : e ≠ slip) :
    Verif.require c e ≠ .error slip := by
  unfold Verif.require
  split
  · exact fun h => by cases h
  · exact fun h => he (Except.error.inj h)

theorem optErr_slip {α : Type} {o : Option α} {e : Err} (he : e ≠ slip) :
    optErr o e ≠ .error slip := by
  cases o with
  | none => exact fun h => he (Except.error.inj h)
  | some a => exact fun h => by cases h

theorem okOr_slip {α : Type} {r : Res α} {e : SwapError} (he : Err.swap e ≠ slip) :
    okOr r e ≠ .error slip := by
  cases r with
  | ok a => exact fun h => by cases h
  | none => exact fun h => he (Except.error.inj h)
  | panic => exact fun h => by cases h

theorem toU64_slip {v : Nat} : toU64 v ≠ .error slip := by
  unfold toU64
  split
  · exact fun h => by cases h
  · exact fun h => by cases h

theorem ok_slip {α : Type} {a : α} : (Except.ok a : Except Err α) ≠ .error slip := fun h => by cases h

theorem bind_slip {α β : Type} {x : Except Err α} {f : α → Except Err β} (hx : x ≠ .error slip)
    (hf : ∀ a, f a ≠ .error slip) : (x >>= f) ≠ .error slip := by
  cases x with
  | error e => exact fun h => hx (by rw [show e = slip from Except.error.inj h])
  | ok a => exact hf a

theorem ite_slip {α : Type} {c : Prop} [Decidable c] {x y : Except Err α} (hx : x ≠ .error slip)
    (hy : y ≠ .error slip) : (if c then x else y) ≠ .error slip := by
  split
  · exact hx
  · exact hy

theorem unpackToken_slip {w : World} {k tp : Pubkey} : unpackTokenAccount w k tp ≠ .error slip := by
  unfold unpackTokenAccount
  refine ite_slip (fun h => by cases h) ?_
  cases (w k).data <;> exact fun h => by cases h

theorem unpackMint_slip {w : World} {k tp : Pubkey} : unpackMint w k tp ≠ .error slip := by
  unfold unpackMint
  refine ite_slip (fun h => by cases h) ?_
  cases (w k).data <;> exact fun h => by cases h

theorem unpackCurve_slip {l : List UInt8} : State.unpackCurve l ≠ .error slip := by
  unfold State.unpackCurve
  exact ite_slip ok_slip (ite_slip ok_slip (ite_slip ok_slip (ite_slip ok_slip (ite_slip ok_slip
    fun h => by cases h))))

theorem unpackSwap_slip {w : World} {k : Pubkey} : unpackSwap w k ≠ .error slip := by
  unfold unpackSwap
  cases (w k).data with
  | token t => exact fun h => by cases h
  | mint t => exact fun h => by cases h
  | raw l =>
    show SwapVersion.unpack l ≠ _
    unfold SwapVersion.unpack
    cases l with
    | nil => exact fun h => by cases h
    | cons v rest =>
      refine ite_slip ?_ (fun h => by cases h)
      unfold SwapV1.unpack
      refine ite_slip (fun h => by cases h) (bind_slip ?_ fun s => ?_)
      · unfold SwapV1.unpackFromSlice
        by_cases h0 : State.byteAt rest 0 = 0
        · simp only [if_pos h0]
          exact bind_slip ok_slip fun _ => bind_slip unpackCurve_slip fun _ => ok_slip
        · simp only [if_neg h0]
          by_cases h1 : State.byteAt rest 0 = 1
          · simp only [if_pos h1]
            exact bind_slip ok_slip fun _ => bind_slip unpackCurve_slip fun _ => ok_slip
          · simp only [if_neg h1]
            exact fun h => by cases h
      · exact ite_slip ok_slip (fun h => by cases h)

theorem authorityId_slip {env : Env} {k : Pubkey} {b : UInt8} :
    authorityId env k b ≠ .error slip := optErr_slip (by decide)

theorem cpiSigned_slip {env : Env} {signers : List Pubkey} {k : Pubkey} {b : UInt8} :
    cpiSigned env signers k b ≠ .error slip := by
  unfold cpiSigned
  cases env.createPda k b <;> exact fun h => by cases h

theorem getToken_slip {tp : Pubkey} {w : World} {k : Pubkey} :
    Token.getToken tp w k ≠ .error slip := by
  unfold Token.getToken
  refine ite_slip ?_ (fun h => by cases h)
  cases (w k).data <;> exact fun h => by cases h

theorem getMint_slip {tp : Pubkey} {w : World} {k : Pubkey} :
    Token.getMint tp w k ≠ .error slip := by
  unfold Token.getMint
  refine ite_slip ?_ (fun h => by cases h)
  cases (w k).data <;> exact fun h => by cases h

theorem validateOwner_slip {s : Pubkey → Bool} {x y : Pubkey} :
    Token.validateOwner s x y ≠ .error slip :=
  bind_slip (require_slip (by decide)) fun _ => require_slip (by decide)

theorem authorize_slip {s : Pubkey → Bool} {t : TokenAccount} {y : Pubkey} {x : UInt64} :
    Token.authorize s t y x ≠ .error slip := by
  unfold Token.authorize
  exact ite_slip (bind_slip (require_slip (by decide)) fun _ => bind_slip (optErr_slip (by decide))
    fun _ => ok_slip) (bind_slip validateOwner_slip fun _ => ok_slip)

variable {env : Env} {signers : List Pubkey}

theorem tokenTransfer_slip {swap tp src dst au : Pubkey} {b : UInt8} {x : UInt64} {w : World} :
    tokenTransfer env signers swap tp src dst au b x w ≠ .error slip := by
  refine bind_slip (require_slip (by decide)) fun _ => bind_slip cpiSigned_slip fun _ => ?_
  unfold Token.transfer
  exact bind_slip getToken_slip fun _ => bind_slip getToken_slip fun _ =>
    bind_slip (require_slip (by decide)) fun _ => bind_slip (require_slip (by decide)) fun _ =>
    bind_slip (require_slip (by decide)) fun _ => bind_slip authorize_slip fun _ =>
    ite_slip ok_slip (bind_slip (optErr_slip (by decide)) fun _ =>
      bind_slip (optErr_slip (by decide)) fun _ => ok_slip)

theorem tokenMintTo_slip {swap tp src dst au : Pubkey} {b : UInt8} {x : UInt64} {w : World} :
    tokenMintTo env signers swap tp src dst au b x w ≠ .error slip := by
  refine bind_slip (require_slip (by decide)) fun _ => bind_slip cpiSigned_slip fun _ => ?_
  unfold Token.mintTo
  exact bind_slip getToken_slip fun _ => bind_slip (require_slip (by decide)) fun _ =>
    bind_slip (require_slip (by decide)) fun _ => bind_slip getMint_slip fun _ =>
    bind_slip (optErr_slip (by decide)) fun _ => bind_slip validateOwner_slip fun _ =>
    bind_slip (optErr_slip (by decide)) fun _ => bind_slip (optErr_slip (by decide)) fun _ => ok_slip

theorem tokenBurn_slip {swap tp src dst au : Pubkey} {b : UInt8} {x : UInt64} {w : World} :
    tokenBurn env signers swap tp src dst au b x w ≠ .error slip := by
  refine bind_slip (require_slip (by decide)) fun _ => bind_slip cpiSigned_slip fun _ => ?_
  unfold Token.burn
  exact bind_slip getToken_slip fun _ => bind_slip getMint_slip fun _ =>
    bind_slip (require_slip (by decide)) fun _ => bind_slip (require_slip (by decide)) fun _ =>
    bind_slip (require_slip (by decide)) fun _ => bind_slip authorize_slip fun _ =>
    bind_slip (optErr_slip (by decide)) fun _ => bind_slip (optErr_slip (by decide)) fun _ => ok_slip

theorem tokenTransferIfPos_slip {swap tp src dst au : Pubkey} {b : UInt8} {x : UInt64} {w : World} :
    tokenTransferIfPos env signers swap tp src dst au b x w ≠ .error slip :=
  ite_slip tokenTransfer_slip ok_slip

theorem checkAccounts_slip {w : World} {ts : SwapV1} {swap au tA tB pm tp : Pubkey}
    {uA uB fe : Option Pubkey} :
    Processor.checkAccounts env w ts swap au tA tB pm tp uA uB fe ≠ .error slip := by
  unfold Processor.checkAccounts
  exact bind_slip (require_slip (by decide)) fun _ => bind_slip authorityId_slip fun _ =>
    bind_slip (require_slip (by decide)) fun _ => bind_slip (require_slip (by decide)) fun _ =>
    bind_slip (require_slip (by decide)) fun _ => bind_slip (require_slip (by decide)) fun _ =>
    bind_slip (require_slip (by decide)) fun _ => bind_slip (require_slip (by decide)) fun _ =>
    bind_slip (require_slip (by decide)) fun _ => require_slip (by decide)

theorem ownerFeeStep_slip {ts : SwapV1} {a : SwapAccounts} {n : Nat} {w : World} :
    ownerFeeStep env signers ts a none n w ≠ .error slip := by
  unfold ownerFeeStep hostFeeStep
  exact ite_slip (bind_slip ok_slip fun _ => bind_slip toU64_slip fun _ => tokenMintTo_slip) ok_slip

theorem singleDirection_slip {x y z : Pubkey} : singleDirection x y z ≠ .error slip :=
  ite_slip ok_slip (ite_slip ok_slip fun h => by cases h)

theorem Cut.ite {τ L α : Type} {best : L} {P : τ → L → Prop} {Q : τ → World → Prop}
    {c : Prop} [Decidable c] {x x' : Except Err α} {f : α → L → Except Err World} (T0 : τ)
    (h0 : ∀ y, P T0 y) (hx : x ≠ .error slip) (hx' : x' ≠ .error slip)
    (h : ∀ a, (if c then x else x') = .ok a → Cut best P Q (f a)) :
    Cut best P Q (fun y => if c then x >>= fun a => f a y else x' >>= fun a => f a y) := by
  by_cases hc : c
  · simp only [if_pos hc] at h ⊢
    exact Cut.bind T0 h0 hx h
  · simp only [if_neg hc] at h ⊢
    exact Cut.bind T0 h0 hx' h

theorem u64_le (y : UInt64) : y.toNat ≤ U64 := by
  have := y.toNat_lt
  unfold U64
  omega

/-- Demands. -/
abbrev Demand : Nat → UInt64 → Prop := fun T y => y.toNat ≤ T

/-- Offers. -/
abbrev Offer : Nat → UInt64 → Prop := fun T y => T ≤ y.toNat

theorem swap_cut (x : UInt64) (a : SwapAccounts) (w : World) :
    Cut (0 : UInt64) Demand (fun T _ => ∃ ts src dst r, unpackSwap w a.swap = .ok ts ∧
        unpackTokenAccount w a.swapSource ts.token_program_id = .ok src ∧
        unpackTokenAccount w a.swapDestination ts.token_program_id = .ok dst ∧
        ts.swap_curve.swap env.spl x.toNat src.amount.toNat dst.amount.toNat (swapDirection ts a)
          ts.fees = .ok r ∧ T = r.destination_amount_swapped)
      (fun y => processSwap env signers x y a none w) := by
  unfold processSwap
  refine Cut.bind U64 u64_le (require_slip (by decide)) fun _ _ => ?_
  refine Cut.bind U64 u64_le unpackSwap_slip fun ts hts => ?_
  refine Cut.bind U64 u64_le authorityId_slip fun _ _ => ?_
  refine Cut.bind U64 u64_le (require_slip (by decide)) fun _ _ => ?_
  refine Cut.bind U64 u64_le (require_slip (by decide)) fun _ _ => ?_
  refine Cut.bind U64 u64_le (require_slip (by decide)) fun _ _ => ?_
  refine Cut.bind U64 u64_le (require_slip (by decide)) fun _ _ => ?_
  refine Cut.bind U64 u64_le (require_slip (by decide)) fun _ _ => ?_
  refine Cut.bind U64 u64_le (require_slip (by decide)) fun _ _ => ?_
  refine Cut.bind U64 u64_le (require_slip (by decide)) fun _ _ => ?_
  refine Cut.bind U64 u64_le (require_slip (by decide)) fun _ _ => ?_
  refine Cut.bind U64 u64_le (require_slip (by decide)) fun _ _ => ?_
  refine Cut.bind U64 u64_le unpackToken_slip fun src hsrc => ?_
  refine Cut.bind U64 u64_le unpackToken_slip fun dst hdst => ?_
  refine Cut.bind U64 u64_le unpackMint_slip fun pm _ => ?_
  refine Cut.bind U64 u64_le (okOr_slip (by decide)) fun r hr => ?_
  refine Cut.require (T := r.destination_amount_swapped) (fun y => Iff.rfl) (Nat.zero_le _) ?_
    fun w' _ => ⟨ts, src, dst, r, hts, hsrc, hdst, okOr_ok.1 hr, rfl⟩
  exact bind_slip toU64_slip fun _ => bind_slip tokenTransfer_slip fun _ =>
    bind_slip (okOr_slip (by decide)) fun _ => bind_slip ownerFeeStep_slip fun _ =>
    bind_slip toU64_slip fun _ => tokenTransfer_slip

theorem le_largest (x : UInt64) : x ≤ largest := by
  rw [UInt64.le_iff_toNat_le]
  have := x.toNat_lt
  have e : largest.toNat = 18446744073709551615 := rfl
  omega

theorem depositSingle_cut (x : UInt64) (a : DepositSingleAccounts) (w : World) :
    Cut (0 : UInt64) Demand (fun T _ => ∃ ts src tA tB dir pm, unpackSwap w a.swap = .ok ts ∧
        unpackTokenAccount w a.source ts.token_program_id = .ok src ∧
        unpackTokenAccount w a.tokenA ts.token_program_id = .ok tA ∧
        unpackTokenAccount w a.tokenB ts.token_program_id = .ok tB ∧
        singleDirection src.mint tA.mint tB.mint = .ok dir ∧
        unpackMint w a.poolMint ts.token_program_id = .ok pm ∧
        (pm.supply > 0 → ts.swap_curve.depositSingle env.spl x.toNat tA.amount.toNat
          tB.amount.toNat pm.supply.toNat dir ts.fees = .ok T) ∧
        (¬ pm.supply > 0 → T = ts.swap_curve.newPoolSupply))
      (fun y => processDepositSingle env signers x y a w) := by
  unfold processDepositSingle
  refine Cut.bind U64 u64_le unpackSwap_slip fun ts hts => ?_
  refine Cut.bind U64 u64_le unpackToken_slip fun src hsrc => ?_
  refine Cut.bind U64 u64_le unpackToken_slip fun tA hA => ?_
  refine Cut.bind U64 u64_le unpackToken_slip fun tB hB => ?_
  refine Cut.bind U64 u64_le singleDirection_slip fun dir hdir => ?_
  refine Cut.bind U64 u64_le checkAccounts_slip fun _ _ => ?_
  refine Cut.bind U64 u64_le unpackMint_slip fun pm hpm => ?_
  refine Cut.ite U64 u64_le (okOr_slip (by decide)) ok_slip fun pt hpt => ?_
  refine Cut.bind U64 u64_le toU64_slip fun amtP hamt => ?_
  have hT : amtP.toNat = pt := (toU64_ok.1 hamt)
  refine Cut.require (T := pt) (fun y => ?_) ?_ ?_
    fun w' _ => ⟨ts, src, tA, tB, dir, pm, hts, hsrc, hA, hB, hdir, hpm, fun h => ?_, fun h => ?_⟩
  · rw [UInt64.le_iff_toNat_le, hT]
  · rw [UInt64.le_iff_toNat_le]
    exact Nat.zero_le _
  · exact bind_slip (require_slip (by decide)) fun _ => bind_slip tokenTransfer_slip fun _ =>
      tokenMintTo_slip
  · rw [if_pos h] at hpt
    exact okOr_ok.1 hpt
  · rw [if_neg h] at hpt
    exact (Except.ok.inj hpt).symm

theorem withdrawSingle_cut (x : UInt64) (a : WithdrawSingleAccounts) (w : World) :
    Cut largest Offer (fun T _ => ∃ ts dst tA tB dir pm burnt fee, unpackSwap w a.swap = .ok ts ∧
        unpackTokenAccount w a.destination ts.token_program_id = .ok dst ∧
        unpackTokenAccount w a.tokenA ts.token_program_id = .ok tA ∧
        unpackTokenAccount w a.tokenB ts.token_program_id = .ok tB ∧
        singleDirection dst.mint tA.mint tB.mint = .ok dir ∧
        unpackMint w a.poolMint ts.token_program_id = .ok pm ∧
        ts.swap_curve.withdrawSingle env.spl x.toNat tA.amount.toNat tB.amount.toNat
          pm.supply.toNat dir ts.fees = .ok burnt ∧
        (a.fee = a.source → fee = 0) ∧
        (a.fee ≠ a.source → ts.fees.ownerWithdrawFee burnt = .ok fee) ∧ T = burnt + fee)
      (fun y => processWithdrawSingle env signers x y a w) := by
  unfold processWithdrawSingle
  have h0 : ∀ y, Offer 0 y := fun y => Nat.zero_le _
  refine Cut.bind 0 h0 unpackSwap_slip fun ts hts => ?_
  refine Cut.bind 0 h0 unpackToken_slip fun dst hdst => ?_
  refine Cut.bind 0 h0 unpackToken_slip fun tA hA => ?_
  refine Cut.bind 0 h0 unpackToken_slip fun tB hB => ?_
  refine Cut.bind 0 h0 singleDirection_slip fun dir hdir => ?_
  refine Cut.bind 0 h0 checkAccounts_slip fun _ _ => ?_
  refine Cut.bind 0 h0 unpackMint_slip fun pm hpm => ?_
  refine Cut.bind 0 h0 (okOr_slip (by decide)) fun burnt hb => ?_
  refine Cut.ite 0 h0 ok_slip (okOr_slip (by decide)) fun fee hfee => ?_
  refine Cut.bind 0 h0 (okOr_slip (by decide)) fun pt hpt => ?_
  refine Cut.bind 0 h0 toU64_slip fun p64 hp64 => ?_
  have hT : p64.toNat = pt := (toU64_ok.1 hp64)
  have hsum : pt = burnt + fee := ((cadd_eq_ok).1 (okOr_ok.1 hpt)).2
  refine Cut.require (T := pt) (fun y => ?_) (le_largest _) ?_
    fun w' _ => ⟨ts, dst, tA, tB, dir, pm, burnt, fee, hts, hdst, hA, hB, hdir, hpm, okOr_ok.1 hb,
      fun h => ?_, fun h => ?_, hsum⟩
  · rw [UInt64.le_iff_toNat_le, hT]
  · exact bind_slip (require_slip (by decide)) fun _ => bind_slip toU64_slip fun _ =>
      bind_slip tokenTransferIfPos_slip fun _ => bind_slip toU64_slip fun _ =>
      bind_slip tokenBurn_slip fun _ => tokenTransfer_slip
  · rw [if_pos h] at hfee
    exact (Except.ok.inj hfee).symm
  · rw [if_neg h] at hfee
    exact okOr_ok.1 hfee

theorem depositAll_cut (p : UInt64) (a : DepositAllAccounts) (w : World) :
    Cut (largest, largest) (fun (t : Nat × Nat) y => Offer t.1 y.1 ∧ Offer t.2 y.2)
      (fun (T : Nat × Nat) _ => ∃ ts tA tB pm, unpackSwap w a.swap = .ok ts ∧
        unpackTokenAccount w a.tokenA ts.token_program_id = .ok tA ∧
        unpackTokenAccount w a.tokenB ts.token_program_id = .ok tB ∧
        unpackMint w a.poolMint ts.token_program_id = .ok pm ∧
        ts.swap_curve.poolTokensToTradingTokens env.spl
          (if pm.supply > 0 then p.toNat else ts.swap_curve.newPoolSupply)
          (if pm.supply > 0 then pm.supply.toNat else ts.swap_curve.newPoolSupply)
          tA.amount.toNat tB.amount.toNat .Ceiling = .ok ⟨T.1, T.2⟩)
      (fun y : UInt64 × UInt64 => processDepositAll env signers p y.1 y.2 a w) := by
  unfold processDepositAll
  have h0 : ∀ y : UInt64 × UInt64, Offer ((0, 0) : Nat × Nat).1 y.1 ∧
    Offer ((0, 0) : Nat × Nat).2 y.2 := fun y => ⟨Nat.zero_le _, Nat.zero_le _⟩
  have h1 : ∀ y, Offer 0 y := fun y => Nat.zero_le _
  refine Cut.bind (0, 0) h0 unpackSwap_slip fun ts hts => ?_
  refine Cut.bind (0, 0) h0 (require_slip (by decide)) fun _ _ => ?_
  refine Cut.bind (0, 0) h0 checkAccounts_slip fun _ _ => ?_
  refine Cut.bind (0, 0) h0 unpackToken_slip fun tA hA => ?_
  refine Cut.bind (0, 0) h0 unpackToken_slip fun tB hB => ?_
  refine Cut.bind (0, 0) h0 unpackMint_slip fun pm hpm => ?_
  refine Cut.bind (0, 0) h0 (okOr_slip (by decide)) fun r hr => ?_
  refine Cut.bind (0, 0) h0 toU64_slip fun amtA hamtA => ?_
  have hTA := toU64_ok.1 hamtA
  refine Cut.first (best := (largest, largest)) (T := r.token_a_amount) (c := fun y => amtA ≤ y) (P1 := Offer) (P2 := Offer)
    (f := fun z => Verif.require (amtA ≠ 0) (.swap .ZeroTradingTokens) >>= fun _ =>
      toU64 r.token_b_amount >>= fun amtB => Verif.require (amtB ≤ z) slip >>= fun _ =>
      Verif.require (amtB ≠ 0) (.swap .ZeroTradingTokens) >>= fun _ =>
      toU64 (if pm.supply > 0 then p.toNat else ts.swap_curve.newPoolSupply) >>= fun amtP =>
      tokenTransfer env signers a.swap a.tokenProgram a.sourceA a.tokenA a.userAuthority
        ts.bump_seed amtA w >>= fun w1 =>
      tokenTransfer env signers a.swap a.tokenProgram a.sourceB a.tokenB a.userAuthority
        ts.bump_seed amtB w1 >>= fun w2 =>
      tokenMintTo env signers a.swap a.tokenProgram a.poolMint a.destination a.authority
        ts.bump_seed amtP w2)
    (fun y => ?_) (le_largest _) ?_
  · rw [UInt64.le_iff_toNat_le, hTA]
  refine Cut.bind 0 h1 (require_slip (by decide)) fun _ _ => ?_
  refine Cut.bind 0 h1 toU64_slip fun amtB hamtB => ?_
  have hTB := toU64_ok.1 hamtB
  refine Cut.require (T := r.token_b_amount) (fun y => ?_) (le_largest _) ?_
    fun w' _ => ⟨ts, tA, tB, pm, hts, hA, hB, hpm, okOr_ok.1 hr⟩
  · rw [UInt64.le_iff_toNat_le, hTB]
  · exact bind_slip (require_slip (by decide)) fun _ => bind_slip toU64_slip fun _ =>
      bind_slip tokenTransfer_slip fun _ => bind_slip tokenTransfer_slip fun _ => tokenMintTo_slip

theorem withdrawAll_cut (p : UInt64) (a : WithdrawAllAccounts) (w : World) :
    Cut ((0, 0) : UInt64 × UInt64) (fun (t : Nat × Nat) y => Demand t.1 y.1 ∧ Demand t.2 y.2)
      (fun (T : Nat × Nat) _ => ∃ ts tA tB pm fee burnt r, unpackSwap w a.swap = .ok ts ∧
        unpackTokenAccount w a.tokenA ts.token_program_id = .ok tA ∧
        unpackTokenAccount w a.tokenB ts.token_program_id = .ok tB ∧
        unpackMint w a.poolMint ts.token_program_id = .ok pm ∧
        (a.fee = a.source → fee = 0) ∧
        (a.fee ≠ a.source → ts.fees.ownerWithdrawFee p.toNat = .ok fee) ∧
        burnt + fee = p.toNat ∧
        ts.swap_curve.poolTokensToTradingTokens env.spl burnt pm.supply.toNat
          tA.amount.toNat tB.amount.toNat .Floor = .ok r ∧
        T = (min tA.amount.toNat r.token_a_amount, min tB.amount.toNat r.token_b_amount))
      (fun y : UInt64 × UInt64 => processWithdrawAll env signers p y.1 y.2 a w) := by
  unfold processWithdrawAll
  have h0 : ∀ y : UInt64 × UInt64, Demand ((U64, U64) : Nat × Nat).1 y.1 ∧
    Demand ((U64, U64) : Nat × Nat).2 y.2 := fun y => ⟨u64_le _, u64_le _⟩
  refine Cut.bind (U64, U64) h0 unpackSwap_slip fun ts hts => ?_
  refine Cut.bind (U64, U64) h0 checkAccounts_slip fun _ _ => ?_
  refine Cut.bind (U64, U64) h0 unpackToken_slip fun tA hA => ?_
  refine Cut.bind (U64, U64) h0 unpackToken_slip fun tB hB => ?_
  refine Cut.bind (U64, U64) h0 unpackMint_slip fun pm hpm => ?_
  refine Cut.ite (U64, U64) h0 ok_slip (okOr_slip (by decide)) fun fee hfee => ?_
  refine Cut.bind (U64, U64) h0 (okOr_slip (by decide)) fun pt hpt => ?_
  have hb := csub_eq_ok.1 (okOr_ok.1 hpt)
  refine Cut.bind (U64, U64) h0 (okOr_slip (by decide)) fun r hr => ?_
  refine Cut.bind (U64, U64) h0 toU64_slip fun amtA0 hamtA => ?_
  have hTA := toU64_ok.1 hamtA
  have hmin : ∀ x y : UInt64, (capped x y).toNat = min x.toNat y.toNat := min_toNat
  refine Cut.first (best := (0, 0)) (T := min tA.amount.toNat r.token_a_amount) (c := fun y => y ≤ capped tA.amount amtA0)
    (P1 := Demand) (P2 := Demand)
    (f := fun z => Verif.require (¬(capped tA.amount amtA0 = 0 ∧ tA.amount ≠ 0))
        (.swap .ZeroTradingTokens) >>= fun _ =>
      toU64 r.token_b_amount >>= fun amtB0 => Verif.require (z ≤ capped tB.amount amtB0) slip >>=
        fun _ =>
      Verif.require (¬(capped tB.amount amtB0 = 0 ∧ tB.amount ≠ 0)) (.swap .ZeroTradingTokens) >>=
        fun _ =>
      toU64 fee >>= fun feeAmt =>
      tokenTransferIfPos env signers a.swap a.tokenProgram a.source a.fee a.userAuthority
        ts.bump_seed feeAmt w >>= fun w1 =>
      toU64 pt >>= fun burnAmt =>
      tokenBurn env signers a.swap a.tokenProgram a.source a.poolMint a.userAuthority
        ts.bump_seed burnAmt w1 >>= fun w2 =>
      tokenTransferIfPos env signers a.swap a.tokenProgram a.tokenA a.destA a.authority
        ts.bump_seed (capped tA.amount amtA0) w2 >>= fun w3 =>
      tokenTransferIfPos env signers a.swap a.tokenProgram a.tokenB a.destB a.authority
        ts.bump_seed (capped tB.amount amtB0) w3)
    (fun y => ?_) ?_ ?_
  · rw [UInt64.le_iff_toNat_le, hmin, hTA]
  · rw [UInt64.le_iff_toNat_le]
    exact Nat.zero_le _
  refine Cut.bind U64 u64_le (require_slip (by decide)) fun _ _ => ?_
  refine Cut.bind U64 u64_le toU64_slip fun amtB0 hamtB => ?_
  have hTB := toU64_ok.1 hamtB
  refine Cut.require (T := min tB.amount.toNat r.token_b_amount) (fun y => ?_) ?_ ?_
    fun w' _ => ⟨ts, tA, tB, pm, fee, pt, r, hts, hA, hB, hpm, fun h => ?_, fun h => ?_, ?_,
      okOr_ok.1 hr, rfl⟩
  · rw [UInt64.le_iff_toNat_le, hmin, hTB]
  · rw [UInt64.le_iff_toNat_le]
    exact Nat.zero_le _
  · exact bind_slip (require_slip (by decide)) fun _ => bind_slip toU64_slip fun _ =>
      bind_slip tokenTransferIfPos_slip fun _ => bind_slip toU64_slip fun _ =>
      bind_slip tokenBurn_slip fun _ => bind_slip tokenTransferIfPos_slip fun _ =>
      tokenTransferIfPos_slip
  · rw [if_pos h] at hfee
    exact (Except.ok.inj hfee).symm
  · rw [if_neg h] at hfee
    exact okOr_ok.1 hfee
  · omega

end Verif
