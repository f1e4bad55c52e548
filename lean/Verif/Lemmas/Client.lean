import Verif.Spec.Client
import Verif.Lemmas.State
import Verif.Lemmas.Wire
import Verif.Lemmas.Chain
import Verif.Props.State

/-
Lemmas about the TypeScript client.
-/

namespace Verif
namespace Client
open State Spec Processor

theorem digits_small {n : Nat} (h : n < 256) : digits n = [UInt8.ofNat n] := by
  rw [digits, if_pos h]

theorem digits_large {n : Nat} (h : ¬ n < 256) :
    digits n = UInt8.ofNat (n % 256) :: digits (n / 256) := by
  rw [digits, if_neg h]

theorem digits_pad : ∀ (k n : Nat), n < 256 ^ (k + 1) → (digits n).length ≤ k + 1 ∧
    digits n ++ List.replicate (k + 1 - (digits n).length) 0 =
      (List.range (k + 1)).map fun i => UInt8.ofNat (n / 256 ^ i % 256)
  | 0, n, h => by
    have h' : n < 256 := by simpa using h
    rw [digits_small h']
    refine ⟨by simp, ?_⟩
    simp [List.range, List.range.loop, Nat.mod_eq_of_lt h']
  | k + 1, n, h => by
    rw [List.range_succ_eq_map, List.map_cons, List.map_map]
    have hdiv : ∀ i, n / 256 ^ (i + 1) = n / 256 / 256 ^ i := fun i => by
      rw [Nat.pow_succ, Nat.mul_comm, ← Nat.div_div_eq_div_mul]
    by_cases hs : n < 256
    · rw [digits_small hs]
      refine ⟨by simp, ?_⟩
      rw [Nat.pow_zero, Nat.div_one, Nat.mod_eq_of_lt hs]
      simp only [List.length_cons, List.length_nil, List.cons_append, List.nil_append]
      congr 1
      have e : k + 1 + 1 - (0 + 1) = k + 1 := by omega
      rw [e]
      symm
      rw [List.eq_replicate_iff]
      refine ⟨by simp, ?_⟩
      intro b hb
      obtain ⟨i, _, rfl⟩ := List.mem_map.1 hb
      show UInt8.ofNat (n / 256 ^ (i + 1) % 256) = 0
      rw [hdiv, Nat.div_eq_of_lt hs]
      simp
    · rw [digits_large hs]
      have hn : n / 256 < 256 ^ (k + 1) := by
        rw [Nat.div_lt_iff_lt_mul (by decide)]
        rw [Nat.pow_succ] at h
        exact h
      obtain ⟨h1, h2⟩ := digits_pad k (n / 256) hn
      refine ⟨by simpa using h1, ?_⟩
      rw [Nat.pow_zero, Nat.div_one]
      simp only [List.length_cons, List.cons_append]
      congr 1
      have e : k + 1 + 1 - ((digits (n / 256)).length + 1) =
        k + 1 - (digits (n / 256)).length := by omega
      rw [e, h2]
      refine List.map_congr_left fun i _ => ?_
      show _ = UInt8.ofNat (n / 256 ^ (i + 1) % 256)
      rw [hdiv]

theorem digits_bound : ∀ (k n : Nat), (digits n).length ≤ k + 1 → n < 256 ^ (k + 1)
  | 0, n, h => by
    by_cases hs : n < 256
    · simpa using hs
    · rw [digits_large hs] at h
      have : 0 < (digits (n / 256)).length := by
        rw [digits]; split <;> simp
      simp only [List.length_cons] at h
      omega
  | k + 1, n, h => by
    by_cases hs : n < 256
    · exact lt_of_lt_of_le hs (by
        calc 256 = 256 ^ 1 := by norm_num
          _ ≤ 256 ^ (k + 1 + 1) := Nat.pow_le_pow_right (by decide) (by omega))
    · rw [digits_large hs] at h
      have := digits_bound k (n / 256) (by simpa using h)
      rw [Nat.div_lt_iff_lt_mul (by decide)] at this
      rw [Nat.pow_succ]
      exact this

theorem toBuffer_iff (x : Int) (b : List UInt8) : toBuffer x = some b ↔
    x.natAbs < 18446744073709551616 ∧ b = leBytes (UInt64.ofNat x.natAbs) := by
  have hp : (256 : Nat) ^ (7 + 1) = 18446744073709551616 := by norm_num
  unfold toBuffer
  simp only []
  have key : x.natAbs < 18446744073709551616 → (digits x.natAbs).length ≤ 8 ∧
      digits x.natAbs ++ List.replicate (8 - (digits x.natAbs).length) 0 =
        leBytes (UInt64.ofNat x.natAbs) := by
    intro h
    obtain ⟨h1, h2⟩ := digits_pad 7 x.natAbs (by rw [hp]; exact h)
    refine ⟨h1, ?_⟩
    rw [h2]
    unfold leBytes
    rw [UInt64.toNat_ofNat_of_lt' h]
  constructor
  · intro h
    have hl : (digits x.natAbs).length ≤ 8 := by
      by_contra hc
      rw [if_neg (by omega), if_neg (by omega)] at h
      cases h
    have hb := digits_bound 7 _ hl
    rw [hp] at hb
    refine ⟨hb, ?_⟩
    rw [← (key hb).2]
    split at h
    · rename_i h8
      rw [h8]
      simpa using (Option.some.inj h).symm
    · rw [if_pos (by omega)] at h
      exact (Option.some.inj h).symm
  · rintro ⟨h, rfl⟩
    obtain ⟨h1, h2⟩ := key h
    rw [← h2]
    split
    · rename_i h8
      rw [h8]; simp
    · rw [if_pos (by omega)]

theorem foldr_leNat : ∀ b : List UInt8,
    b.foldr (fun x n => n * 256 + x.toNat) 0 = leNat b
  | [] => rfl
  | x :: b => by
    rw [List.foldr_cons, foldr_leNat b, leNat]
    omega

theorem fromBuffer_eq {b : List UInt8} (h : b.length = 8) : fromBuffer b = some (leNat b) := by
  unfold fromBuffer
  rw [if_pos h, List.foldl_reverse, foldr_leNat]

/-- A field read as a blob and converted is the number stored. -/
theorem fromBuffer_blob {l : List UInt8} {off : Nat} (h : off + 8 ≤ l.length) :
    fromBuffer (blob l off 8) = some (u64At l off).toNat := by
  have hl : (blob l off 8).length = 8 := by
    unfold blob
    rw [List.length_take, List.length_drop]; omega
  rw [fromBuffer_eq hl]
  unfold u64At
  have := leNat_lt (blob l off 8)
  rw [hl] at this
  show _ = some (UInt64.ofNat (leNat (blob l off 8))).toNat
  rw [UInt64.toNat_ofNat_of_lt' (lt_of_lt_of_le this (by norm_num))]

theorem curveTag_of {l : List UInt8} {c : Curve} (h : unpackCurve l = .ok c) :
    (byteAt l 0).toNat = kindNumber c := by
  unfold unpackCurve at h
  simp only [] at h
  split at h
  · rename_i e; cases h; rw [e]; rfl
  split at h
  · rename_i e; cases h; rw [e]; rfl
  split at h
  · rename_i e; cases h; rw [e]; rfl
  split at h
  · rename_i e; cases h; rw [e]; rfl
  split at h
  · rename_i e; cases h; rw [e]; rfl
  · cases h

theorem u64At_drop (l : List UInt8) (a b : Nat) : u64At (l.drop a) b = u64At l (a + b) := by
  unfold u64At
  rw [List.drop_drop]

/-- The client shows a stored pool as it is. -/
theorem load_pool {env : Env} {w : World} {k : Pubkey} {s : SwapV1} (hp : PoolAt env w k s) :
    load env w k = some (view env k s) := by
  obtain ⟨ho, l, hl, hu⟩ := hp
  obtain ⟨rest, rfl, hlen, hs, hi⟩ := Props.unpack_inv hu
  obtain ⟨h0, hc, h1, h2, h3, h4, h5, h6, h7, h8, hf⟩ := Props.unpackFromSlice_inv hs
  have hb : byteAt rest 0 = 1 := by
    rcases h0 with ⟨_, h0⟩ | ⟨h0, _⟩
    · rw [hi] at h0; cases h0
    · exact h0
  unfold load
  rw [if_neg (by rw [not_not]; exact ho), hl]
  simp only []
  have hll : (1 :: rest).length = 324 := by rw [List.length_cons, hlen]
  rw [if_neg (by rw [hll]; decide)]
  have hb1 : byteAt (1 :: rest) 1 = 1 := hb
  rw [hb1, if_neg (by decide)]
  rw [fromBuffer_blob (by rw [hll]; decide), fromBuffer_blob (by rw [hll]; decide),
    fromBuffer_blob (by rw [hll]; decide), fromBuffer_blob (by rw [hll]; decide),
    fromBuffer_blob (by rw [hll]; decide), fromBuffer_blob (by rw [hll]; decide),
    fromBuffer_blob (by rw [hll]; decide), fromBuffer_blob (by rw [hll]; decide)]
  have ht := curveTag_of hc
  have ht' : (byteAt (1 :: rest) 291).toNat = kindNumber s.swap_curve := by
    rw [← ht, Props.drop_get]; rfl
  rw [ht']
  unfold view
  rw [h2, h3, h4, h5, h6, h7, h8, hf]
  unfold unpackFees
  simp only [u64At_drop]
  rfl

/-! ### Accounts of the program -/

/-- What an account of the program can hold. -/
def Kinds (env : Env) (w : World) (k : Pubkey) : Prop :=
  (∃ n, (w k).data = .raw (List.replicate n 0)) ∨ IdlData (w k).data ∨ ∃ s, PoolAt env w k s

theorem Kinds.congr {env : Env} {w w' : World} {k : Pubkey} (h : Kinds env w k)
    (ho : (w' k).owner = (w k).owner) (hd : ∀ l, (w k).data = .raw l → (w' k).data = .raw l) :
    Kinds env w' k := by
  rcases h with ⟨n, h⟩ | ⟨t, h⟩ | ⟨s, h1, l, h2, h3⟩
  · exact Or.inl ⟨n, hd _ h⟩
  · exact Or.inr (Or.inl ⟨t, hd _ h⟩)
  · exact Or.inr (Or.inr ⟨s, ho.trans h1, l, hd _ h2, h3⟩)

theorem program_accounts {env : Env} {K : Pubkey → Prop} {w0 w : World} (h0 : Unused env w0)
    (h : Steps env K w0 w) : ∀ k, (w k).owner = env.programId → Kinds env w k := by
  induction h with
  | refl => intro k hk; exact absurd hk (h0 k)
  | tail _ hstep ih =>
    intro k hk
    cases hstep with
    | other h =>
      rename_i b c _
      by_cases ho : (b k).owner = env.programId
      · rcases h.program k ho with e | ⟨_, _, e⟩
        · exact (ih k ho).congr (by rw [e]) (fun l hl => by rw [e]; exact hl)
        · exact Or.inr (Or.inl e)
      · rcases h.fresh k ho hk with e | e
        · exact Or.inl e
        · exact Or.inr (Or.inl e)
    | instr signers i hK hs h =>
      rcases exec_frame h with ⟨a, f, c, hi⟩ | hf
      · by_cases hka : k = a.swap
        · subst hka
          obtain ⟨_, hpr⟩ := Props.exec_init hi h
          obtain ⟨tA, tB, fa, de, pm, bytes, old, w1, r⟩ := processInitialize_ok hpr
          exact Or.inr (Or.inr ⟨_, r.after⟩)
        · obtain ⟨w1, hf, hw, _⟩ := init_shape hi h
          have ho : (w1 k).owner = _ := (hf k).1
          rw [hw k hka] at hk
          exact (ih k (ho.symm.trans hk)).congr (by rw [hw k hka]; exact ho)
            (fun l hl => by rw [hw k hka, hf.raw hl])
      · have ho := (hf k).1
        exact (ih k (ho.symm.trans hk)).congr ho (fun l hl => by rw [hf.raw hl])

/-- Accounts filled with zeros are not shown. -/
theorem load_zeros {env : Env} {w : World} {k : Pubkey} {n : Nat}
    (h : (w k).data = .raw (List.replicate n 0)) : load env w k = none := by
  unfold load
  split
  · rfl
  · rw [h]
    simp only []
    split
    · rfl
    · rw [if_pos]
      unfold byteAt
      rw [List.getD_eq_getElem?_getD, List.getElem?_replicate]
      split <;> rfl

theorem load_owner {env : Env} {w : World} {k : Pubkey} {p : Pool} (h : load env w k = some p) :
    (w k).owner = env.programId := by
  unfold load at h
  split at h
  · cases h
  · rename_i hn; exact not_not.1 hn

/-- A pool is controlled by the address the client derives. -/
theorem pool_authority {env : Env} {K : Pubkey → Prop} (he : EnvOk env K) {w0 w : World}
    (h0 : NoPools env w0) (h : Steps env K w0 w) : ∀ k s, PoolAt env w k s →
      K k ∧ Custody env w k s (env.findPda k).1 := by
  induction h with
  | refl => intro k s hp; exact absurd hp (h0 k s)
  | tail _ hstep ih =>
    intro k s hp
    rcases step_pool_back hp hstep with h1 | ⟨signers, i, a, f, c, hK, _, hi, hx, rfl⟩
    · obtain ⟨hk, hc⟩ := ih k s h1
      exact ⟨hk, hc.step hk hstep⟩
    · exact ⟨hK, (init_custody he hK hi hx hp).1⟩

/-! ### Instructions -/

theorem toBuffer_nat (x : UInt64) : toBuffer x.toNat = some (leBytes x) := by
  rw [toBuffer_iff]
  rw [Int.natAbs_natCast, UInt64.ofNat_toNat]
  exact ⟨x.toNat_lt, rfl⟩

theorem toBuffer_length {x : Int} {b : List UInt8} (h : toBuffer x = some b) : b.length = 8 := by
  obtain ⟨_, rfl⟩ := (toBuffer_iff x b).1 h
  exact leBytes_length _

theorem Option_bind_some {α β : Type} {x : Option α} {f : α → Option β} {b : β}
    (h : (x >>= f) = some b) : ∃ a, x = some a ∧ f a = some b := by
  cases x with
  | none => cases h
  | some a => exact ⟨a, rfl, h⟩

/-- Client data start with a number below six. -/
theorem built_data {ix : Ix} (h : Built ix) : ∃ t rest, ix.data = t :: rest ∧ 7 ≤ rest.length ∧
    (t = 0 ∨ t = 1 ∨ t = 2 ∨ t = 3 ∨ t = 4 ∨ t = 5) := by
  cases h with
  | init h =>
    obtain ⟨p, _, h⟩ := Option_bind_some h
    cases h
    refine ⟨0, _, rfl, ?_, Or.inl rfl⟩
    simp only [List.length_append, packFees, leBytes_length]
    omega
  | swap h =>
    obtain ⟨x, hx, h⟩ := Option_bind_some h
    obtain ⟨y, hy, h⟩ := Option_bind_some h
    cases h
    refine ⟨1, _, rfl, ?_, by decide⟩
    rw [List.length_append, toBuffer_length hx]; omega
  | depositAll h =>
    obtain ⟨x, hx, h⟩ := Option_bind_some h
    obtain ⟨y, hy, h⟩ := Option_bind_some h
    obtain ⟨z, hz, h⟩ := Option_bind_some h
    cases h
    refine ⟨2, _, rfl, ?_, by decide⟩
    rw [List.length_append, List.length_append, toBuffer_length hx]; omega
  | withdrawAll h =>
    obtain ⟨x, hx, h⟩ := Option_bind_some h
    obtain ⟨y, hy, h⟩ := Option_bind_some h
    obtain ⟨z, hz, h⟩ := Option_bind_some h
    cases h
    refine ⟨3, _, rfl, ?_, by decide⟩
    rw [List.length_append, List.length_append, toBuffer_length hx]; omega
  | depositSingle h =>
    obtain ⟨x, hx, h⟩ := Option_bind_some h
    obtain ⟨y, hy, h⟩ := Option_bind_some h
    cases h
    refine ⟨4, _, rfl, ?_, by decide⟩
    rw [List.length_append, toBuffer_length hx]; omega
  | withdrawSingle h =>
    obtain ⟨x, hx, h⟩ := Option_bind_some h
    obtain ⟨y, hy, h⟩ := Option_bind_some h
    cases h
    refine ⟨5, _, rfl, ?_, by decide⟩
    rw [List.length_append, toBuffer_length hx]; omega

/-- The program knows none of them. -/
theorem built_entry {ix : Ix} (h : Built ix) (env : Env)
    (idl : List Meta → List UInt8 → World → Except Err World) (w : World) :
    Wire.entry env idl ix.keys ix.data w =
      .error (.anchor .InstructionFallbackNotFound) := by
  obtain ⟨t, rest, hd, hl, ht⟩ := built_data h
  rw [hd]
  have hne : ∀ l : List UInt8, 6 ≤ l.headD 0 → (t :: rest).take 8 ≠ l := by
    rintro l ha rfl
    have ha : 6 ≤ t := ha
    rcases ht with rfl | rfl | rfl | rfl | rfl | rfl <;> exact absurd ha (by decide)
  have hp : Wire.parse (t :: rest) = .error (.anchor .InstructionFallbackNotFound) := by
    unfold Wire.parse
    rw [if_neg (by rw [List.length_cons]; omega)]
    simp only []
    rw [if_neg (hne _ (by decide)), if_neg (hne _ (by decide)), if_neg (hne _ (by decide)),
      if_neg (hne _ (by decide)), if_neg (hne _ (by decide)), if_neg (hne _ (by decide)),
      if_neg (hne _ (by decide))]
  unfold Wire.entry
  rw [if_neg (hne _ (by decide)), hp]
  rfl

/-- Apart from the tag, they are right. -/
theorem builtFor_shape {i : Instr} {u : Pubkey} {ix : Ix} (h : BuiltFor i u ix) :
    ix.data.drop 1 = (words i.args).flatMap leBytes ∧ Fits ix.keys (roles i) ∧
      Wire.signersOf ix.keys = [u] := by
  cases h with
  | swap a host x y h =>
    unfold swapIx at h
    rw [toBuffer_nat, toBuffer_nat] at h
    cases h
    refine ⟨by simp [words, Instr.args], ?_, ?_⟩
    · simp [Fits, roles, Role.Ok, ro, rw, sg]
    · cases host <;> simp [Wire.signersOf, ro, rw, sg]
  | depositAll a x y z h =>
    unfold depositAllIx at h
    rw [toBuffer_nat, toBuffer_nat, toBuffer_nat] at h
    cases h
    refine ⟨by simp [words, Instr.args], ?_, ?_⟩
    · simp [Fits, roles, Role.Ok, ro, rw, sg]
    · simp [Wire.signersOf, ro, rw, sg]
  | withdrawAll a x y z h =>
    unfold withdrawAllIx at h
    rw [toBuffer_nat, toBuffer_nat, toBuffer_nat] at h
    cases h
    refine ⟨by simp [words, Instr.args], ?_, ?_⟩
    · simp [Fits, roles, Role.Ok, ro, rw, sg]
    · simp [Wire.signersOf, ro, rw, sg]
  | depositSingle a x y h =>
    unfold depositSingleIx at h
    rw [toBuffer_nat, toBuffer_nat] at h
    cases h
    refine ⟨by simp [words, Instr.args], ?_, ?_⟩
    · simp [Fits, roles, Role.Ok, ro, rw, sg]
    · simp [Wire.signersOf, ro, rw, sg]
  | withdrawSingle a x y h =>
    unfold withdrawSingleIx at h
    rw [toBuffer_nat, toBuffer_nat] at h
    cases h
    refine ⟨by simp [words, Instr.args], ?_, ?_⟩
    · simp [Fits, roles, Role.Ok, ro, rw, sg]
    · simp [Wire.signersOf, ro, rw, sg]

theorem builtFor_signers {i : Instr} {u : Pubkey} {ix : Ix} (h : BuiltFor i u ix) :
    Wire.signersOf ix.keys = [u] := (builtFor_shape h).2.2

theorem builtFor_entry {i : Instr} {u : Pubkey} {ix : Ix} (h : BuiltFor i u ix) (env : Env)
    (idl : List Meta → List UInt8 → World → Except Err World) (w : World) :
    Wire.entry env idl ix.keys (tag i.args ++ ix.data.drop 1) w =
      exec env (Wire.signersOf ix.keys) i w := by
  obtain ⟨h1, h2, _⟩ := builtFor_shape h
  have e : tag i.args ++ ix.data.drop 1 = encode i.args ++ [] := by
    rw [List.append_nil, h1]; rfl
  rw [e]
  unfold Wire.entry
  rw [if_neg (by rw [Wire.encode_take]; exact Wire.tag_not_idl _),
    (Wire.parse_iff _ _).2 ⟨[], rfl⟩]
  show (Wire.bindAccounts ix.keys i.args >>= fun i => exec env (Wire.signersOf ix.keys) i w) = _
  rw [(Wire.bind_iff _ _ _).2 ⟨rfl, h2⟩]
  rfl

end Client
end Verif
