import Verif.Spec.Exec

/-
A concrete environment and ledger on which the theorems about instructions are exercised: a linear
pool and a constant-price pool, not yet initialised, with all accounts in place.
-/

namespace Verif
namespace Sample

/-- Short addresses. -/
abbrev key (b : UInt8) : Pubkey := Pubkey.fill b

/-- Derived address of a pool in the sample environment: every byte of the key plus 128. -/
def pda (k : Pubkey) : Pubkey := ⟨k.bytes.map (· + 128), by rw [List.length_map, k.len]⟩

/-- Sample environment: no constraints, bump 255. -/
def env : Env where
  programId := key 100
  tokenProgramId := key 101
  createPda k b := if b = 255 then some (pda k) else none
  findPda k := (pda k, 255)
  spl := ⟨true, fun _ => .none⟩
  constraints := none

/-- The same with the constraints of a production build whose owner is `key 60`. -/
def prodEnv : Env := { env with constraints := some (.production (some (key 60))) }

/-- A token account. -/
def tok (mint owner : Pubkey) (amount : UInt64) : Account :=
  ⟨key 101, .token ⟨mint, owner, amount, none, false, 0, none⟩⟩

/-- A mint. -/
def mnt (auth : Pubkey) (supply : UInt64) : Account := ⟨key 101, .mint ⟨some auth, supply, none⟩⟩

/-- A ledger from a list; other addresses are empty accounts of the system program. -/
def ledger : List (Pubkey × Account) → World
  | [] => fun _ => ⟨key 0, .raw []⟩
  | (k, a) :: rest => fun j => if j = k then a else ledger rest j

/-- Before anything happened.  Pool 1 (linear): vaults 3, 4, pool mint 5, fee account 6,
destination 7.  Pool 2 (constant price): vaults 13, 14, pool mint 15, fee account 16, destination
17.  Mints: 20 (token A), 21 (token B).  User 50 holds 30 (A), 31 (B). -/
def accounts : List (Pubkey × Account) := [
  (key 1, ⟨key 100, .raw (List.replicate 324 0)⟩),
  (key 2, ⟨key 100, .raw (List.replicate 324 0)⟩),
  (key 3, tok (key 20) (key 129) 0),
  (key 4, tok (key 21) (key 129) 100),
  (key 5, mnt (key 129) 0),
  (key 6, tok (key 5) (key 60) 0),
  (key 7, tok (key 5) (key 50) 0),
  (key 13, tok (key 20) (key 130) 5000),
  (key 14, tok (key 21) (key 130) 700),
  (key 15, mnt (key 130) 0),
  (key 16, tok (key 15) (key 60) 0),
  (key 17, tok (key 15) (key 50) 0),
  (key 20, mnt (key 61) 25000),
  (key 21, mnt (key 61) 20800),
  (key 30, tok (key 20) (key 50) 20000),
  (key 31, tok (key 21) (key 50) 20000)]

/-- The ledger before anything happened. -/
def start : World := ledger accounts

/-- Accounts of the two pools. -/
def init1 : Processor.InitAccounts := ⟨key 1, key 129, key 3, key 4, key 5, key 6, key 7, key 101⟩
def init2 : Processor.InitAccounts :=
  ⟨key 2, key 130, key 13, key 14, key 15, key 16, key 17, key 101⟩

/-- Linear curve of pool 1: slope 2, price 3. -/
def lin : LinearPriceCurve := ⟨2, 1, 3, 1⟩

/-- Fees of pool 2: 0.25% trade, 2% owner, 1% withdraw, 20% host. -/
def fees : Fees := ⟨25, 10000, 2, 100, 1, 100, 20, 100⟩

/-- Initialise pool 1, buy with 30 A, sell one token B back. -/
def initLinear : Instr := .initLinearPrice init1 lin
def buy : Instr :=
  .swap ⟨key 1, key 129, key 50, key 30, key 3, key 4, key 31, key 5, key 6, key 101⟩ 30 4
def sell : Instr :=
  .swap ⟨key 1, key 129, key 50, key 31, key 4, key 3, key 30, key 5, key 6, key 101⟩ 2 1

/-- Initialise pool 2, swap, deposit, withdraw. -/
def initPrice : Instr := .initConstantPrice init2 fees 7
def trade : Instr :=
  .swap ⟨key 2, key 130, key 50, key 30, key 13, key 14, key 31, key 15, key 16, key 101⟩ 1000 100
def depAll : Instr :=
  .depositAll ⟨key 2, key 130, key 50, key 30, key 31, key 13, key 14, key 15, key 17, key 101⟩
    100000000 2000 2000
def wdAll : Instr :=
  .withdrawAll ⟨key 2, key 130, key 50, key 15, key 17, key 13, key 14, key 30, key 31, key 16,
    key 101⟩ 100000000 1 1
def depOne : Instr :=
  .depositSingle ⟨key 2, key 130, key 50, key 30, key 13, key 14, key 15, key 17, key 101⟩ 700 1
def wdOne : Instr :=
  .withdrawSingle ⟨key 2, key 130, key 50, key 15, key 17, key 13, key 14, key 30, key 16, key 101⟩
    700 100000000

/-- Execute instructions in transactions signed by the pool accounts and user 50. -/
def run (e : Env) : List Instr → World → Except Err World
  | [], w => .ok w
  | i :: is, w => do
    let w' ← exec e [key 1, key 2, key 50] i w
    run e is w'

/-- What the ledger looks like after a run, through an observation. -/
def after {α : Type} (r : Except Err World) (obs : World → α) : Except Err α :=
  match r with
  | .ok w => .ok (obs w)
  | .error e => .error e

/-- Balances of some accounts. -/
def bals (ks : List UInt8) (w : World) : List Int := ks.map fun b => Spec.bal w (key b)

instance : DecidableEq (Except Err (List Int)) := fun a b =>
  match a, b with
  | .ok x, .ok y => if h : x = y then .isTrue (by rw [h]) else .isFalse (fun e => h (by cases e; rfl))
  | .error x, .error y =>
    if h : x = y then .isTrue (by rw [h]) else .isFalse (fun e => h (by cases e; rfl))
  | .ok _, .error _ => .isFalse (fun e => by cases e)
  | .error _, .ok _ => .isFalse (fun e => by cases e)

end Sample
end Verif
