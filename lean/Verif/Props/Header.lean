import Verif.Model.Header
import Verif.Props.Wire

/-
C100: the C bindings shipped with the program (false), and that using them does no harm.
-/

namespace Verif
namespace Props
open Wire Header State

/-- What programs written against the bindings rely on: instructions built from them are understood. -/
def InstructionsFit : Prop :=
  ∀ i : Header.Instruction, ∃ pad rest a, pad.length = 4 ∧ parse (i.bytes pad rest) = .ok a

/-- The account of a pool reads as initialised, with the pool's vaults and mint. -/
def AccountsFit : Prop :=
  ∀ l s, SwapVersion.unpack l = .ok s → ∃ fee, readState l =
    some (.init ⟨s.token_a, s.token_b, s.pool_mint, fee⟩)

theorem tag_take (i : Header.Instruction) (pad rest : List UInt8) (hp : pad.length = 4) :
    (i.bytes pad rest).take 8 = i.tag ++ pad := by
  have : (i.tag ++ pad).length = 8 := by cases i <;> simp [Instruction.tag, hp]
  unfold Instruction.bytes
  rw [List.append_assoc, List.take_append_of_le_length (by omega), List.take_of_length_le (by omega)]

theorem tag_foreign (i : Header.Instruction) (pad : List UInt8) (t : List UInt8)
    (ht : t.take 4 ∉ [[0, 0, 0, 0], [1, 0, 0, 0], [2, 0, 0, 0], [3, 0, 0, 0]]) :
    i.tag ++ pad ≠ t := by
  rintro rfl
  apply ht
  cases i <;> simp [Instruction.tag]

/-- C100.  Whatever accounts it is sent with and whatever its padding, an instruction built from the
bindings is turned down as unknown: nothing happens. -/
theorem C100_refused_partial (env : Env) (idl : List Meta → List UInt8 → World → Except Err World)
    (ms : List Meta) (i : Header.Instruction) (pad rest : List UInt8) (hp : pad.length = 4)
    (w : World) :
    entry env idl ms (i.bytes pad rest) w = .error (.anchor .InstructionFallbackNotFound) := by
  have h8 := tag_take i pad rest hp
  have hl : ¬ (i.bytes pad rest).length < 8 := by
    intro h
    have := congrArg List.length h8
    have h4 : i.tag.length = 4 := by cases i <;> rfl
    rw [List.length_take, List.length_append, hp, h4] at this
    omega
  have hf := fun t ht => tag_foreign i pad t ht
  unfold entry parse
  simp only [h8, if_neg hl, if_neg (hf tagIdl (by decide)),
    if_neg (hf tagInitConstantPrice (by decide)), if_neg (hf tagInitLinearPrice (by decide)),
    if_neg (hf tagSwap (by decide)), if_neg (hf tagDepositAll (by decide)),
    if_neg (hf tagWithdrawAll (by decide)), if_neg (hf tagDepositSingle (by decide)),
    if_neg (hf tagWithdrawSingle (by decide))]
  rfl

/-- C100.  Read with the bindings, no account that the program takes for a pool looks initialised or
unallocated: a program built on them cannot mistake other addresses for the pool's vaults. -/
theorem C100_unreadable_partial (l : List UInt8) (s : SwapV1) (h : SwapVersion.unpack l = .ok s) :
    readState l = none := by
  unfold SwapVersion.unpack SwapV1.unpack SwapV1.unpackFromSlice at h
  match l with
  | [] => simp at h
  | v :: rest =>
    by_cases hv : v = 1
    · subst hv
      simp only [if_pos] at h
      by_cases hl : rest.length ≠ SwapV1.LEN
      · simp [hl] at h
      · rw [if_neg hl] at h
        match rest with
        | [] => simp [SwapV1.LEN] at hl
        | i :: b :: r =>
          by_cases h0 : i = 0
          · subst h0
            cases hc : unpackCurve (List.drop 288 r) <;>
              simp [byteAt, hc, bind, Except.bind] at h
          · have hi : 1 ≤ i.toNat := by
              rcases Nat.eq_zero_or_pos i.toNat with h1 | h1
              · exact absurd (UInt8.toNat_inj.1 (by simpa using h1)) h0
              · exact h1
            unfold readState
            have : 257 ≤ leNat ((1 :: i :: b :: r).take 4) := by
              simp only [List.take_succ_cons, leNat, show (1 : UInt8).toNat = 1 from rfl]
              omega
            split
            · rfl
            · rw [if_neg (by omega), if_neg (by omega)]
        | [i] => simp [SwapV1.LEN] at hl
    · simp [hv] at h

/-- A pool. -/
def headerPool : SwapV1 := ⟨true, 255, Pubkey.fill 9, Pubkey.fill 3, Pubkey.fill 4, Pubkey.fill 5,
  Pubkey.fill 7, Pubkey.fill 8, Pubkey.fill 6, ⟨0, 0, 0, 0, 0, 0, 0, 0⟩, .linear ⟨1, 2, 3, 4⟩⟩

/-- Its account. -/
def headerRecord : List UInt8 := 1 :: SwapV1.packIntoSlice headerPool (List.replicate 323 0)

example : SwapVersion.unpack headerRecord = .ok headerPool := by decide +kernel
example : headerRecord.length = 324 ∧ stateLen = 120 := by decide +kernel
/-- The tag the bindings see: 1 + 256 + 255 · 256² + 9 · 256³. -/
example : leNat (headerRecord.take 4) = 167706881 := by decide +kernel
/-- The bindings do read accounts laid out as they say. -/
example : readState ([1, 0, 0, 0, 7, 7, 7, 7] ++ List.replicate 32 3 ++ List.replicate 32 4 ++
    List.replicate 32 5 ++ leBytes 1000 ++ leBytes 3) =
    some (.init ⟨Pubkey.fill 3, Pubkey.fill 4, Pubkey.fill 5, ⟨1000, 3⟩⟩) := by decide +kernel

/-- C100.  The bindings describe another program: neither their instructions nor their accounts are
those of this one. -/
theorem C100_false : ¬ InstructionsFit ∧ ¬ AccountsFit := by
  constructor
  · intro h
    obtain ⟨pad, rest, a, hp, h⟩ := h (.swap 30)
    have := C100_refused_partial Sample.env (fun _ _ _ => .error .InvalidAccountData) []
      (.swap 30) pad rest hp Sample.start
    unfold entry at this
    rw [tag_take _ _ _ hp, if_neg (tag_foreign _ _ tagIdl (by decide)), h] at this
    cases a <;> cases this
  · intro h
    obtain ⟨fee, h'⟩ := h headerRecord headerPool (by decide +kernel)
    rw [C100_unreadable_partial headerRecord headerPool (by decide +kernel)] at h'
    cases h'

/-- The purchase of `Props.Wire` through the bindings; the struct of a fee as it lies in memory. -/
example : isOk (enter buyMetas (Header.Instruction.bytes (.swap 30) [0, 0, 0, 0] [])) = false := by
  decide +kernel
example : Header.Instruction.bytes (.initialize ⟨1000, 3⟩) [7, 7, 7, 7] [] =
    [0, 0, 0, 0, 7, 7, 7, 7, 232, 3, 0, 0, 0, 0, 0, 0, 3, 0, 0, 0, 0, 0, 0, 0] := by decide

end Props
end Verif
