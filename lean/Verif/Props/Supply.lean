import Verif.Lemmas.Supply
import Verif.Props.Outside
import Verif.Spec.Claim

/-
C73: pool tokens held anywhere add up to the recorded supply, so nobody can be left with pool tokens
that cannot be redeemed for want of supply, and all claims together are covered.
-/

namespace Verif
namespace Props

open Spec Processor

/-- C73.  Over every execution, of this program's instructions and of steps of others, the tokens of
a mint in all accounts keep adding up to the supply recorded in it.  (Not so for wrapped SOL, whose
mint records no supply.) -/
theorem C73_accounted (env : Env) (sys : Pubkey) (K : Pubkey → Prop) (he : EnvOk env K)
    (hst : sys ≠ env.tokenProgramId) (w0 w : World) (h : Moves env sys K w0 w) (m : Pubkey)
    (hn : m ≠ Token.nativeMint) (h0 : Accounted env w0 m) : Accounted env w m := by
  induction h with
  | refl => exact h0
  | tail _ hm ih =>
    cases hm with
    | instr signers i hk hs h => exact exec_keeps h m hn ih
    | outside h => exact h.keeps he hst m hn ih

/-- C73.  That is so from the start for an address at which nothing was issued yet. -/
theorem C73_fresh (env : Env) (w : World) (m : Pubkey) (h1 : issued env (w m) = 0)
    (h2 : ∀ k, held env m (w k) = 0) : Accounted env w m :=
  ⟨∅, fun F _ => by rw [h1]; exact Finset.sum_eq_zero fun k _ => h2 k⟩

/-- C73.  Holders, however many, never have more than the supply. -/
theorem C73_covered (env : Env) (w : World) (m : Pubkey) (h : Accounted env w m)
    (F : Finset Pubkey) : ∑ k ∈ F, held env m (w k) ≤ issued env (w m) := by
  obtain ⟨F0, h⟩ := h
  rw [← h (F0 ∪ F) Finset.subset_union_left]
  exact Finset.sum_le_sum_of_subset Finset.subset_union_right

/-- C73.  So whoever can pay with pool tokens can also have them burnt: the supply a withdrawal
subtracts from is never too small. -/
theorem C73_burnable (env : Env) (w : World) (m : Pubkey) (h : Accounted env w m)
    (src u : Pubkey) (x : Nat) (hpay : CanPay env w src m u x) : (x : Int) ≤ supply w m := by
  obtain ⟨ho, t, ht, hm, _, _, _, hx⟩ := hpay
  have h1 := C73_covered env w m h {src}
  rw [Finset.sum_singleton] at h1
  have h2 := held_int (env := env) w m src
  rw [if_pos ho] at h2
  have h3 : mintOf w src = some m := by unfold mintOf; rw [ht, ← hm]; rfl
  rw [when_pos h3, bal_token (tokenAt_some.1 ht)] at h2
  have h4 := issued_int (env := env) w m
  have h5 : 0 ≤ supply w m := by unfold supply; split <;> simp
  split at h4 <;> omega

/-- C73.  When the supply is zero nobody holds pool tokens. -/
theorem C73_zero (env : Env) (w : World) (m : Pubkey) (h : Accounted env w m)
    (h0 : supply w m = 0) (k : Pubkey) : held env m (w k) = 0 := by
  have h1 := C73_covered env w m h {k}
  rw [Finset.sum_singleton] at h1
  have h2 := issued_int (env := env) w m
  split at h2 <;> omega

theorem sum_claims {F : Finset Pubkey} {held a b : Pubkey → Nat} {S t : Nat} (hS : 0 < S)
    (h : ∑ k ∈ F, held k ≤ S) (ha : ∀ k ∈ F, a k * S ≤ held k * t)
    (hb : ∀ k ∈ F, b k * S ≤ held k * t) : ∑ k ∈ F, (a k + b k) ≤ 2 * t := by
  have h1 : (∑ k ∈ F, (a k + b k)) * S ≤ (∑ k ∈ F, held k) * (2 * t) := by
    rw [Finset.sum_mul, Finset.sum_mul]
    refine Finset.sum_le_sum fun k hk => ?_
    have := ha k hk
    have := hb k hk
    nlinarith
  have h2 : (∑ k ∈ F, held k) * (2 * t) ≤ S * (2 * t) := Nat.mul_le_mul_right _ h
  exact Nat.le_of_mul_le_mul_left (by rw [Nat.mul_comm S]; exact h1.trans h2) hS

/-- C73.  A constant-price pool is never insolvent: what the withdrawal of all pool tokens would be
quoted to every holder, all of them together, is not worth more than the two vaults. -/
theorem C73_solvent (env : Env) (sys : Pubkey) (K : Pubkey → Prop) (he : EnvOk env K)
    (hst : sys ≠ env.tokenProgramId) (hsp : sys ≠ env.programId) (w0 w : World)
    (h0 : NoPools env w0) (hc : Clean env sys K w0) (h : Moves env sys K w0 w) (k : Pubkey)
    (s : SwapV1) (hp : PoolAt env w k s) (p : UInt64) (hl : s.swap_curve = .constantPrice p)
    (hn : s.pool_mint ≠ Token.nativeMint) (hm : Accounted env w0 s.pool_mint) (F : Finset Pubkey) (r : Pubkey → TradingTokenResult)
    (hr : ∀ j ∈ F, s.swap_curve.poolTokensToTradingTokens env.spl (held env s.pool_mint (w j))
      (shares w s) (bal w s.token_a).toNat (bal w s.token_b).toNat .Floor = .ok (r j)) :
    ∑ j ∈ F, ((r j).token_a_amount + p.toNat * (r j).token_b_amount) ≤ vaultsWorth w s p.toNat := by
  have hR := (C66_executions env sys K he hst hsp w0 w h0 hc h).1
  obtain ⟨w1, hw1, hst1⟩ := hR
  obtain ⟨hK, ⟨z, hcu⟩, _⟩ := reachable_pool he hw1 hst1 k s hp
  have hcov := C73_covered env w _ (C73_accounted env sys K he hst w0 w h _ hn hm) F
  have hi := issued_int (env := env) w s.pool_mint
  rw [if_pos hcu.minter.1] at hi
  have hsh : issued env (w s.pool_mint) = shares w s := by unfold shares; omega
  rw [hsh] at hcov
  rcases F.eq_empty_or_nonempty with rfl | ⟨j0, hj0⟩
  · simp
  rw [hl] at hr
  obtain ⟨t, h1, h2, hS, _, _⟩ := ConstantPrice.toTrading_floor (e := env.spl) (hr j0 hj0)
  refine le_trans (sum_claims (held := fun j => held env s.pool_mint (w j))
    (a := fun j => (r j).token_a_amount) (b := fun j => p.toNat * (r j).token_b_amount)
    (t := t) hS hcov (fun j hj => ?_) (fun j hj => ?_)) h1
  · obtain ⟨t', h1', h2', _, h3, _⟩ := ConstantPrice.toTrading_floor (e := env.spl) (hr j hj)
    have : t' = t := by omega
    rw [← this]; exact h3
  · obtain ⟨t', h1', h2', _, _, h4⟩ := ConstantPrice.toTrading_floor (e := env.spl) (hr j hj)
    have : t' = t := by omega
    rw [← this]; exact h4

/-! ### The theorems on the sample ledger -/

theorem ledger_all {P : Account → Prop} (hd : P ⟨Sample.key 0, .raw []⟩) :
    ∀ l : List (Pubkey × Account), (∀ x ∈ l, P x.2) → ∀ j, P (Sample.ledger l j)
  | [], _, _ => hd
  | (k, a) :: rest, h, j => by
    unfold Sample.ledger
    split
    · exact h _ (List.mem_cons_self ..)
    · exact ledger_all hd rest (fun x hx => h x (List.mem_cons_of_mem _ hx)) j

theorem start_accounted : Accounted Sample.env Sample.start (Sample.key 15) :=
  C73_fresh _ _ _ (by decide +kernel) (ledger_all
    (P := fun a => held Sample.env (Sample.key 15) a = 0) rfl Sample.accounts (by decide +kernel))

theorem live_moves : Moves Sample.env (Sample.key 0) samplePools Sample.start live := by
  have h : isOk sampleWorld = true := by decide +kernel
  obtain ⟨w, hw⟩ := of_isOk h
  have e : live = w := by unfold live; rw [hw]
  rw [e]
  have key : ∀ (is : List Instr) (w w' : World), (∀ i ∈ is, samplePools i.pool) →
      Sample.run Sample.env is w = .ok w' →
      Moves Sample.env (Sample.key 0) samplePools w w' := by
    intro is
    induction is with
    | nil => intro w w' _ h; cases h; exact .refl
    | cons i is ih =>
      intro w w' hp h
      unfold Sample.run at h
      rw [Except_bind_ok] at h
      obtain ⟨w1, h1, h2⟩ := h
      exact .head (.instr _ i (hp i (List.mem_cons_self ..)) sample_signers h1)
        (ih w1 w' (fun j hj => hp j (List.mem_cons_of_mem _ hj)) h2)
  refine key _ _ _ ?_ hw
  intro i hi
  simp only [List.mem_cons, List.not_mem_nil, or_false] at hi
  rcases hi with rfl | rfl | rfl | rfl | rfl
  · exact Or.inl rfl
  · exact Or.inr rfl
  · exact Or.inl rfl
  · exact Or.inr rfl
  · exact Or.inl rfl

theorem live_accounted : Accounted Sample.env live (Sample.key 15) :=
  C73_accounted Sample.env (Sample.key 0) samplePools sample_ok (by decide) _ _ live_moves _ (by decide)
    start_accounted

/-- The supply of pool 2 is split over the holder and the fee account. -/
example : held Sample.env (Sample.key 15) (live (Sample.key 16)) = 1914937 ∧
    held Sample.env (Sample.key 15) (live (Sample.key 17)) = 1000000000 ∧
    issued Sample.env (live (Sample.key 15)) = 1001914937 := by decide +kernel

example (j : Pubkey) (h1 : j ≠ Sample.key 16) (h2 : j ≠ Sample.key 17) :
    held Sample.env (Sample.key 15) (live j) = 0 := by
  have h := C73_covered _ _ _ live_accounted {j, Sample.key 16, Sample.key 17}
  rw [Finset.sum_insert (by simp [h1, h2]), Finset.sum_insert (by decide), Finset.sum_singleton] at h
  have a1 : held Sample.env (Sample.key 15) (live (Sample.key 16)) = 1914937 := by decide +kernel
  have a2 : held Sample.env (Sample.key 15) (live (Sample.key 17)) = 1000000000 := by decide +kernel
  have a3 : issued Sample.env (live (Sample.key 15)) = 1001914937 := by decide +kernel
  omega

example : (1000000000 : Nat) ≤ supply live (Sample.key 15) :=
  C73_burnable Sample.env live _ live_accounted (Sample.key 17) (Sample.key 50) 1000000000
    (pays 1000000000 (by decide +kernel) (by decide +kernel))

/-- Both holders of pool 2 are quoted 4951 + 7 · 707 and 9 + 7 · 1, of vaults worth 9922. -/
example : ∃ r : Pubkey → TradingTokenResult,
    (∀ j ∈ ({Sample.key 16, Sample.key 17} : Finset Pubkey),
      pool2.swap_curve.poolTokensToTradingTokens Sample.env.spl
        (held Sample.env pool2.pool_mint (live j)) (shares live pool2) (bal live pool2.token_a).toNat
        (bal live pool2.token_b).toNat .Floor = .ok (r j)) ∧
    ∑ j ∈ ({Sample.key 16, Sample.key 17} : Finset Pubkey),
      ((r j).token_a_amount + 7 * (r j).token_b_amount) ≤ vaultsWorth live pool2 7 := by
  have hr : ∀ j ∈ ({Sample.key 16, Sample.key 17} : Finset Pubkey),
      pool2.swap_curve.poolTokensToTradingTokens Sample.env.spl
        (held Sample.env pool2.pool_mint (live j)) (shares live pool2) (bal live pool2.token_a).toNat
        (bal live pool2.token_b).toNat .Floor =
        .ok ((fun j => if j = Sample.key 16 then ⟨9, 1⟩ else ⟨4951, 707⟩ : Pubkey → TradingTokenResult) j) := by
    intro j hj
    rw [Finset.mem_insert, Finset.mem_singleton] at hj
    rcases hj with rfl | rfl <;> decide +kernel
  exact ⟨_, hr, C73_solvent Sample.env (Sample.key 0) samplePools sample_ok (by decide) (by decide)
    _ _ sample_start sample_clean live_moves _ _ live_pool2 7 rfl (by decide) start_accounted _ _ hr⟩

/-- When the supply is zero: before pool 2 was initialised. -/
example (k : Pubkey) : held Sample.env (Sample.key 15) (Sample.start k) = 0 :=
  C73_zero _ _ _ start_accounted (by decide +kernel) k

end Props
end Verif
