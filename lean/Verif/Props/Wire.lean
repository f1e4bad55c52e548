import Verif.Lemmas.Wire
import Verif.Props.Chain
import Verif.Spec.Sha

/-
C61: instruction bytes and account lists mean what the interface says.
-/

namespace Verif
namespace Props
open Spec Wire

/-- C61.  The tags of the model are the ones Anchor derives from the names of the functions in
`lib.rs` (computed here with a SHA-256 written from the standard). -/
theorem C61_tags :
    tagInitConstantPrice = Sha.tag8 "global:initialize_constant_price" ∧
    tagInitLinearPrice = Sha.tag8 "global:initialize_linear_price" ∧
    tagSwap = Sha.tag8 "global:swap" ∧
    tagDepositAll = Sha.tag8 "global:deposit_all_token_types" ∧
    tagWithdrawAll = Sha.tag8 "global:withdraw_all_token_types" ∧
    tagDepositSingle = Sha.tag8 "global:deposit_single_token_type_exact_amount_in" ∧
    tagWithdrawSingle = Sha.tag8 "global:withdraw_single_token_type_exact_amount_out" ∧
    tagIdl = (Sha.tag8 "anchor:idl").reverse ∧ idlTag = Sha.tag8 "internal:IdlAccount" := by
  decide +kernel

/- The SHA-256 used: the test vector "abc" of the standard. -/
example : Sha.sha256 (Sha.ascii "abc") = [0xba, 0x78, 0x16, 0xbf, 0x8f, 0x01, 0xcf, 0xea, 0x41,
    0x41, 0x40, 0xde, 0x5d, 0xae, 0x22, 0x23, 0xb0, 0x03, 0x61, 0xa3, 0x96, 0x17, 0x7a, 0x9c, 0xb4,
    0x10, 0xff, 0x61, 0xf2, 0x00, 0x15, 0xad] := by decide +kernel

/-- C61.  Instruction data are understood as arguments exactly when they start with the encoding of
those arguments. -/
theorem C61_data (data : List UInt8) (a : Args) :
    parse data = .ok a ↔ ∃ rest, data = encode a ++ rest := parse_iff data a

/-- C61.  No data can be read in two ways. -/
theorem C61_unambiguous (a b : Args) (r s : List UInt8) (h : encode a ++ r = encode b ++ s) :
    a = b ∧ r = s := by
  have h1 := (parse_iff _ a).2 ⟨r, rfl⟩
  rw [h, (parse_iff _ b).2 ⟨s, rfl⟩] at h1
  cases Except.ok.inj h1
  exact ⟨rfl, List.append_cancel_left h⟩

/-- C61.  Whatever the data and accounts, an instruction succeeds through the entrypoint exactly when
the data encode its arguments, the accounts come in the documented order with the documented
signatures and write permissions, and the instruction itself succeeds. -/
theorem C61_entry (env : Env) (idl : List Meta → List UInt8 → World → Except Err World)
    (ms : List Meta) (data : List UInt8) (w w' : World) (hd : data.take 8 ≠ tagIdl) :
    entry env idl ms data w = .ok w' ↔ ∃ i rest, data = encode i.args ++ rest ∧
      Fits ms (roles i) ∧ exec env (signersOf ms) i w = .ok w' := by
  rw [entry_ok hd]
  constructor
  · rintro ⟨args, i, h1, h2, h3⟩
    obtain ⟨rest, h1⟩ := (parse_iff data args).1 h1
    obtain ⟨ha, hf⟩ := (bind_iff ms args i).1 h2
    exact ⟨i, rest, by rw [ha]; exact h1, hf, h3⟩
  · rintro ⟨i, rest, h1, h2, h3⟩
    exact ⟨i.args, i, (parse_iff _ _).2 ⟨rest, h1⟩, (bind_iff _ _ _).2 ⟨rfl, h2⟩, h3⟩

/-- C61.  None of the program's own instructions is mistaken for one of Anchor's. -/
theorem C61_not_idl (a : Args) (rest : List UInt8) : (encode a ++ rest).take 8 ≠ tagIdl := by
  rw [encode_take]
  exact tag_not_idl a

/-- C61.  The program changes only accounts passed as writable. -/
theorem C61_writes (env : Env) (idl : List Meta → List UInt8 → World → Except Err World)
    (ms : List Meta) (data : List UInt8) (w w' : World) (hd : data.take 8 ≠ tagIdl)
    (h : entry env idl ms data w = .ok w') (k : Pubkey) (hk : w' k ≠ w k) :
    ∃ m ∈ ms, m.key = k ∧ m.writable = true := by
  obtain ⟨i, rest, _, h2, h3⟩ := (C61_entry env idl ms data w w' hd).1 h
  by_cases hm : k ∈ writable (roles i)
  · exact fits_writable h2 k hm
  · exact absurd (exec_writes h3 hm) hk

theorem fits_pool {ms : List Meta} {i : Instr} (h : Fits ms (roles i)) :
    ∃ m rest, ms = m :: rest ∧ m.key = i.pool := by
  cases i <;> cases ms <;> simp only [roles, Fits, Role.Ok] at h
  all_goals exact ⟨_, _, rfl, by first | exact h.1 | exact h.1.1⟩

/-- C61.  Through the entrypoint, too, tokens leave an account only if an account marked as signer is
its owner or delegate, or it is a vault of the pool that comes first in the account list. -/
theorem C61_no_theft (env : Env) (idl : List Meta → List UInt8 → World → Except Err World)
    (ms : List Meta) (data : List UInt8) (w w' : World) (hd : data.take 8 ≠ tagIdl)
    (h : entry env idl ms data w = .ok w') (k : Pubkey) (hk : bal w' k < bal w k) :
    (∃ m ∈ ms, m.signer = true ∧ Spender w k m.key) ∨
    ∃ m rest ts pda, ms = m :: rest ∧ PoolAt env w m.key ts ∧
      env.createPda m.key ts.bump_seed = some pda ∧ (k = ts.token_a ∨ k = ts.token_b) ∧
      Spender w k pda := by
  obtain ⟨i, rest, _, h2, h3⟩ := (C61_entry env idl ms data w w' hd).1 h
  rcases C33_no_theft env _ i w w' h3 k hk with ⟨s, hs, hsp⟩ | ⟨ts, pda, h4⟩
  · unfold signersOf at hs
    obtain ⟨m, hm, rfl⟩ := List.mem_map.1 hs
    obtain ⟨hm1, hm2⟩ := List.mem_filter.1 hm
    exact Or.inl ⟨m, hm1, hm2, hsp⟩
  · obtain ⟨m, rs, e, hp⟩ := fits_pool h2
    exact Or.inr ⟨m, rs, ts, pda, e, by rw [hp]; exact h4⟩

/-! A purchase as bytes: discriminator, `30`, `4`, two trailing bytes; accounts in order, only the
user's authority signing.  The same bytes without that signature, with a read-only vault, with an
account missing or with the last argument cut short are refused. -/

/-- Accounts of the sample purchase. -/
def buyMetas : List Meta :=
  [⟨Sample.key 1, false, false⟩, ⟨Sample.key 129, false, false⟩, ⟨Sample.key 50, true, false⟩,
   ⟨Sample.key 30, false, true⟩, ⟨Sample.key 3, false, true⟩, ⟨Sample.key 4, false, true⟩,
   ⟨Sample.key 31, false, true⟩, ⟨Sample.key 5, false, true⟩, ⟨Sample.key 6, false, true⟩,
   ⟨Sample.key 101, false, false⟩]

/-- Data of the sample purchase. -/
def buyData : List UInt8 :=
  [248, 198, 158, 145, 225, 117, 135, 200, 30, 0, 0, 0, 0, 0, 0, 0, 4, 0, 0, 0, 0, 0, 0, 0, 9, 9]

/-- An entrypoint whose interface-description instructions all fail. -/
def enter (ms : List Meta) (data : List UInt8) : Except Err World :=
  match Sample.run Sample.env [Sample.initLinear] Sample.start with
  | .ok w => entry Sample.env (fun _ _ _ => .error .InvalidAccountData) ms data w
  | .error e => .error e

example : isOk (enter buyMetas buyData) = true := by decide +kernel
example : buyData = encode Sample.buy.args ++ [9, 9] := by decide
example : Fits buyMetas (roles Sample.buy) := by
  unfold buyMetas Sample.buy
  simp [Fits, roles, Role.Ok]
example : buyData.take 8 ≠ tagIdl := by decide
example : Sample.after (enter buyMetas buyData) (Sample.bals [30, 31, 3, 4]) =
    Sample.after (Sample.run Sample.env [Sample.initLinear, Sample.buy] Sample.start)
      (Sample.bals [30, 31, 3, 4]) := by decide +kernel
/-- The user's account and the pool's vault of token B are the accounts that lose tokens. -/
example : Sample.after (enter buyMetas buyData) (Sample.bals [30, 4]) = .ok [19970, 96] := by
  decide +kernel
example : isOk (enter (buyMetas.set 2 ⟨Sample.key 50, false, false⟩) buyData) = false := by
  decide +kernel
example : isOk (enter (buyMetas.set 4 ⟨Sample.key 3, false, false⟩) buyData) = false := by
  decide +kernel
example : isOk (enter (buyMetas.take 9) buyData) = false := by decide +kernel
example : isOk (enter buyMetas (buyData.take 23)) = false := by decide +kernel

end Props
end Verif
