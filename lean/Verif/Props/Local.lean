import Verif.Lemmas.Local
import Verif.Props.Live

/-
C67: an instruction depends on, and affects, nothing but the accounts passed to it; instructions
apart commute.
-/

namespace Verif
namespace Props

open Spec

variable {env : Env}

/-- C67.  The outcome of an instruction, its error included, is decided by the accounts passed to
it. -/
theorem C67_local (signers : List Pubkey) (i : Instr) (w u : World) (h : Alike i w u) :
    SameVerdict i (exec env signers i w) (exec env signers i u) := by
  rw [exec_alike h]
  cases exec env signers i w with
  | error e => exact rfl
  | ok w' =>
    intro k hk
    exact (mix_at (mem_keysOf.2 hk)).symm

/-- C67.  An instruction executed in between that writes none of the accounts of `i` does not change
the outcome of `i`. -/
theorem C67_unaffected (s t : List Pubkey) (i j : Instr) (w w' : World)
    (h : exec env t j w = .ok w') (ha : ∀ k, Writes j k → ¬ Uses i k) :
    SameVerdict i (exec env s i w) (exec env s i w') := by
  refine C67_local s i w w' fun k hk => ?_
  exact (exec_unwritten h fun hw => ha k hw hk).symm

/-- C67.  The same for any number of instructions in between. -/
theorem C67_unaffected_all (s : List Pubkey) (i : Instr) :
    ∀ (js : List (List Pubkey × Instr)) (w w' : World),
      js.foldlM (fun v x => exec env x.1 x.2 v) w = .ok w' →
      (∀ x ∈ js, ∀ k, Writes x.2 k → ¬ Uses i k) →
      SameVerdict i (exec env s i w) (exec env s i w') := by
  have key : ∀ (js : List (List Pubkey × Instr)) (w w' : World),
      js.foldlM (fun v x => exec env x.1 x.2 v) w = .ok w' →
      (∀ x ∈ js, ∀ k, Writes x.2 k → ¬ Uses i k) → Alike i w w' := by
    intro js
    induction js with
    | nil =>
      intro w w' h _ k _
      cases h
      rfl
    | cons x js ih =>
      intro w w' h ha k hk
      rw [List.foldlM_cons, Except_bind_ok] at h
      obtain ⟨v, h1, h2⟩ := h
      rw [← ih v w' h2 (fun y hy => ha y (List.mem_cons_of_mem _ hy)) k hk]
      exact (exec_unwritten h1 fun hw => ha x List.mem_cons_self k hw hk).symm
  intro js w w' h ha
  exact C67_local s i w w' (key js w w' h ha)

/-- One after the other. -/
def inOrder (env : Env) (s t : List Pubkey) (i j : Instr) (w : World) : Except Err World := do
  let w1 ← exec env s i w
  exec env t j w1

/-- C67.  Two instructions neither of which writes an account of the other can be executed in either
order, with the same resulting ledger. -/
theorem C67_commute (s t : List Pubkey) (i j : Instr) (h : Apart i j) (w w' : World) :
    inOrder env s t i j w = .ok w' ↔ inOrder env t s j i w = .ok w' := by
  have key : ∀ (s t : List Pubkey) (i j : Instr), Apart i j → ∀ (w w' : World),
      inOrder env s t i j w = .ok w' → inOrder env t s j i w = .ok w' := by
    intro s t i j h w w' hr
    unfold inOrder at hr ⊢
    rw [Except_bind_ok] at hr
    obtain ⟨w1, h1, h2⟩ := hr
    have alikeJ : Alike j w1 w := fun k hk => exec_unwritten h1 fun hw => h.1 k hw hk
    have e1 := exec_alike (env := env) (signers := t) alikeJ
    rw [h2] at e1
    have e1' : exec env t j w = .ok (mix (keysOf j) w w') := e1
    rw [e1', Except_bind_ok]
    refine ⟨_, rfl, ?_⟩
    have alikeI : Alike i w (mix (keysOf j) w w') :=
      fun k hk => (exec_unwritten e1' fun hw => h.2 k hw hk).symm
    have e2 := exec_alike (env := env) (signers := s) alikeI
    rw [h1] at e2
    rw [e2]
    refine congrArg Except.ok (funext fun k => ?_)
    by_cases hi : k ∈ keysOf i
    · rw [mix_at hi]
      exact (exec_unwritten h2 fun hw => h.2 k hw (mem_keysOf.1 hi)).symm
    · rw [mix_off hi]
      by_cases hj : k ∈ keysOf j
      · rw [mix_at hj]
      · rw [mix_off hj, exec_unwritten h2 fun hw => hj (mem_keysOf.2 ⟨_, hw.choose_spec.1,
            hw.choose_spec.2.1⟩),
          exec_unwritten h1 fun hw => hi (mem_keysOf.2 ⟨_, hw.choose_spec.1,
            hw.choose_spec.2.1⟩)]
  exact ⟨key s t i j h w w', key t s j i ⟨h.2, h.1⟩ w w'⟩

/-! A second user with accounts of their own trades on the constant-price pool while the first buys
from the linear pool. -/

/-- The sample ledger with wallets 32 (A) and 33 (B) of user 51. -/
def crowd : World := Sample.ledger [
  (Sample.key 32, Sample.tok (Sample.key 20) (Sample.key 51) 4000),
  (Sample.key 33, Sample.tok (Sample.key 21) (Sample.key 51) 4000)]

/-- `live` with those wallets. -/
def crowded : World := fun k =>
  if k = Sample.key 32 ∨ k = Sample.key 33 then crowd k else live k

/-- The first user's purchase from pool 1. -/
def buy50 : Instr :=
  .swap ⟨Sample.key 1, Sample.key 129, Sample.key 50, Sample.key 30, Sample.key 3, Sample.key 4,
    Sample.key 31, Sample.key 5, Sample.key 6, Sample.key 101⟩ 30 1

/-- The second user's trade on pool 2. -/
def trade51 : Instr :=
  .swap ⟨Sample.key 2, Sample.key 130, Sample.key 51, Sample.key 32, Sample.key 13, Sample.key 14,
    Sample.key 33, Sample.key 15, Sample.key 16, Sample.key 101⟩ 1000 100

/-- The second user's purchase from pool 1. -/
def buy51 : Instr :=
  .swap ⟨Sample.key 1, Sample.key 129, Sample.key 51, Sample.key 32, Sample.key 3, Sample.key 4,
    Sample.key 33, Sample.key 5, Sample.key 6, Sample.key 101⟩ 90 1

example : Apart buy50 trade51 := by
  have h : (∀ k ∈ Wire.writable (roles buy50), k ∉ keysOf trade51) ∧
      ∀ k ∈ Wire.writable (roles trade51), k ∉ keysOf buy50 := by decide +kernel
  exact ⟨fun k hk hu => h.1 k (mem_writable.2 hk) (mem_keysOf.2 hu),
    fun k hk hu => h.2 k (mem_writable.2 hk) (mem_keysOf.2 hu)⟩

example : isOk (inOrder Sample.env [Sample.key 50] [Sample.key 51] buy50 trade51 crowded)
    = true := by decide +kernel

example : isOk (inOrder Sample.env [Sample.key 50] [Sample.key 51] buy50 buy51 crowded)
    = true := by decide +kernel

/-- C67.  Without the condition on accounts the order matters: two purchases from one linear pool
get different amounts when exchanged. -/
theorem C67_same_pool : ∃ (env : Env) (w : World) (s t : List Pubkey) (i j : Instr) (w1 w2 : World),
    inOrder env s t i j w = .ok w1 ∧ inOrder env t s j i w = .ok w2 ∧ w1 ≠ w2 := by
  obtain ⟨w1, h1⟩ := of_isOk (show isOk (inOrder Sample.env [Sample.key 50] [Sample.key 51]
    buy50 buy51 crowded) = true by decide +kernel)
  obtain ⟨w2, h2⟩ := of_isOk (show isOk (inOrder Sample.env [Sample.key 51] [Sample.key 50]
    buy51 buy50 crowded) = true by decide +kernel)
  refine ⟨_, _, _, _, _, _, w1, w2, h1, h2, fun e => ?_⟩
  have a : Sample.after (inOrder Sample.env [Sample.key 50] [Sample.key 51]
      buy50 buy51 crowded) (Sample.bals [31, 33]) ≠
    Sample.after (inOrder Sample.env [Sample.key 51] [Sample.key 50]
      buy51 buy50 crowded) (Sample.bals [31, 33]) := by decide +kernel
  rw [h1, h2, e] at a
  exact a rfl

end Props
end Verif
