import Verif.Lemmas.State

/-
C24, C25: the stored pool configuration at byte level.
-/

namespace Verif
namespace Props
open State

/-- Sample configuration: a linear pool. -/
def sampleState : SwapV1 :=
  ⟨true, 254, .fill 1, .fill 2, .fill 3, .fill 4, .fill 5, .fill 6, .fill 7,
    ⟨0, 1, 0, 1, 0, 1, 0, 1⟩, .linear ⟨2, 1, 3, 1⟩⟩

/-- C24.  Writing any configuration into a 324-byte buffer succeeds whatever the buffer held, and
reading back yields the configuration (or "uninitialised" if that flag is not set). -/
theorem C24_round_trip (s : SwapV1) (dst : List UInt8) (h : dst.length = 324) :
    ∃ l, SwapVersion.pack s dst = .ok l ∧ l.length = 324 ∧
      SwapVersion.unpack l =
        if s.is_initialized = true then .ok s else .error .UninitializedAccount := by
  match dst, h with
  | d :: rest, h =>
    have hr : rest.length = 323 := by rw [List.length_cons] at h; omega
    refine ⟨1 :: SwapV1.packIntoSlice s rest, ?_, ?_, ?_⟩
    · unfold SwapVersion.pack SwapV1.pack
      simp only []
      rw [if_neg (by rw [hr]; decide)]
      rfl
    · rw [List.length_cons, SwapV1.pack_length s rest hr]
    · unfold SwapVersion.unpack SwapV1.unpack
      simp only []
      rw [if_pos trivial, if_neg (by rw [SwapV1.pack_length s rest hr]; decide), SwapV1.unpack_pack]
      rfl

/-- C24.  Buffers of any other size are rejected. -/
theorem C24_wrong_size (s : SwapV1) (dst : List UInt8) (h : dst.length ≠ 324) :
    ∃ e, SwapVersion.pack s dst = .error e := by
  match dst, h with
  | [], _ => exact ⟨_, rfl⟩
  | d :: rest, h =>
    refine ⟨.InvalidAccountData, ?_⟩
    unfold SwapVersion.pack SwapV1.pack
    simp only []
    rw [if_pos (by
      intro hc
      apply h
      rw [List.length_cons, hc]; rfl)]
    rfl

example : (List.replicate 324 (7 : UInt8)).length = 324 := List.length_replicate
example : SwapVersion.unpack
    ((1 : UInt8) :: SwapV1.packIntoSlice sampleState (List.replicate 323 7)) = .ok sampleState := by
  decide +kernel

/-- The buffers that hold a configuration: right length, version 1, flag 1, known curve kind. -/
def WellFormed (l : List UInt8) : Prop :=
  l.length = 324 ∧ l[0]? = some 1 ∧ l[1]? = some 1 ∧
    (l[291]? = some 0 ∨ l[291]? = some 1 ∨ l[291]? = some 2 ∨ l[291]? = some 3 ∨
      l[291]? = some 30)

theorem byteAt_get {l : List UInt8} {i : Nat} (h : i < l.length) (v : UInt8) :
    byteAt l i = v ↔ l[i]? = some v := by
  unfold byteAt
  rw [List.getD_eq_getElem?_getD, List.getElem?_eq_getElem h]
  simp

theorem unpackCurve_ok {l : List UInt8} :
    (∃ c, unpackCurve l = .ok c) ↔
      (byteAt l 0 = 0 ∨ byteAt l 0 = 1 ∨ byteAt l 0 = 2 ∨ byteAt l 0 = 3 ∨ byteAt l 0 = 30) := by
  unfold unpackCurve
  simp only []
  constructor
  · rintro ⟨c, h⟩
    by_contra hc
    push Not at hc
    obtain ⟨h0, h1, h2, h3, h4⟩ := hc
    rw [if_neg h0, if_neg h1, if_neg h2, if_neg h3, if_neg h4] at h
    cases h
  · intro h
    split
    · exact ⟨_, rfl⟩
    · split
      · exact ⟨_, rfl⟩
      · split
        · exact ⟨_, rfl⟩
        · split
          · exact ⟨_, rfl⟩
          · split
            · exact ⟨_, rfl⟩
            · rename_i h0 h1 h2 h3 h4
              rcases h with h | h | h | h | h
              · exact absurd h h0
              · exact absurd h h1
              · exact absurd h h2
              · exact absurd h h3
              · exact absurd h h4

theorem unpackFromSlice_inv {l : List UInt8} {s : SwapV1} (h : SwapV1.unpackFromSlice l = .ok s) :
    (byteAt l 0 = 0 ∧ s.is_initialized = false ∨ byteAt l 0 = 1 ∧ s.is_initialized = true) ∧
    unpackCurve (l.drop 290) = .ok s.swap_curve ∧ s.bump_seed = byteAt l 1 ∧
    s.token_program_id = keyAt l 2 ∧ s.token_a = keyAt l 34 ∧ s.token_b = keyAt l 66 ∧
    s.pool_mint = keyAt l 98 ∧ s.token_a_mint = keyAt l 130 ∧ s.token_b_mint = keyAt l 162 ∧
    s.pool_fee_account = keyAt l 194 ∧ s.fees = unpackFees (l.drop 226) := by
  unfold SwapV1.unpackFromSlice at h
  cases hc : unpackCurve (l.drop 290) with
  | error e =>
    rw [hc] at h
    split at h
    · cases h
    · split at h <;> cases h
  | ok c =>
    rw [hc] at h
    split at h
    · rename_i h0
      cases h
      exact ⟨Or.inl ⟨h0, rfl⟩, rfl, rfl, rfl, rfl, rfl, rfl, rfl, rfl, rfl, rfl⟩
    · split at h
      · rename_i h0
        cases h
        exact ⟨Or.inr ⟨h0, rfl⟩, rfl, rfl, rfl, rfl, rfl, rfl, rfl, rfl, rfl, rfl⟩
      · cases h

theorem unpack_inv {l : List UInt8} {s : SwapV1} (h : SwapVersion.unpack l = .ok s) :
    ∃ rest, l = 1 :: rest ∧ rest.length = 323 ∧ SwapV1.unpackFromSlice rest = .ok s ∧
      s.is_initialized = true := by
  unfold SwapVersion.unpack at h
  cases l with
  | nil => cases h
  | cons v rest =>
    simp only [] at h
    split at h
    · rename_i hv
      unfold SwapV1.unpack at h
      split at h
      · cases h
      · rename_i hl
        cases hu : SwapV1.unpackFromSlice rest with
        | error e => rw [hu] at h; cases h
        | ok s' =>
          rw [hu] at h
          have h' : (if s'.is_initialized = true then (.ok s' : Except Err SwapV1) else
            .error .UninitializedAccount) = .ok s := h
          split at h'
          · rename_i hi
            cases h'
            refine ⟨rest, by rw [hv], ?_, hu, hi⟩
            by_contra hc
            exact hl hc
          · cases h'
    · cases h

theorem drop_get {l : List UInt8} {i : Nat} : byteAt (l.drop i) 0 = byteAt l i := by
  unfold byteAt
  rw [List.getD_eq_getElem?_getD, List.getD_eq_getElem?_getD, List.getElem?_drop, Nat.add_zero]

/-- C25.  Reading succeeds exactly on well-formed buffers; every other byte string of any length
is an error. -/
theorem C25_accepts (l : List UInt8) :
    (∃ s, SwapVersion.unpack l = .ok s) ↔ WellFormed l := by
  unfold WellFormed
  constructor
  · rintro ⟨s, h⟩
    obtain ⟨rest, rfl, hl, hu, hi⟩ := unpack_inv h
    obtain ⟨hf, hc, _⟩ := unpackFromSlice_inv hu
    refine ⟨by rw [List.length_cons, hl], rfl, ?_, ?_⟩
    · rcases hf with ⟨_, h2⟩ | ⟨h1, _⟩
      · rw [hi] at h2; cases h2
      · have := (byteAt_get (l := rest) (i := 0) (by omega) 1).1 h1
        exact this
    · have := (unpackCurve_ok (l := rest.drop 290)).1 ⟨_, hc⟩
      rw [drop_get] at this
      have g := fun v => (byteAt_get (l := rest) (i := 290) (by omega) v)
      rw [g, g, g, g, g] at this
      exact this
  · rintro ⟨h1, h2, h3, h4⟩
    match l, h1 with
    | v :: rest, h1 =>
      have hl : rest.length = 323 := by rw [List.length_cons] at h1; omega
      have hv : v = 1 := Option.some.inj h2
      have g := fun v => (byteAt_get (l := rest) (i := 290) (by omega) v)
      have hb : byteAt rest 0 = 1 := (byteAt_get (by omega) 1).2 h3
      have hc : ∃ c, unpackCurve (rest.drop 290) = .ok c := by
        rw [unpackCurve_ok, drop_get, g, g, g, g, g]
        exact h4
      obtain ⟨c, hc⟩ := hc
      unfold SwapVersion.unpack SwapV1.unpack SwapV1.unpackFromSlice
      simp only []
      rw [if_pos hv, if_neg (by rw [hl]; decide), hb, hc]
      exact ⟨_, rfl⟩

/-- C24.  The size the program publishes for clients to allocate is the right one: a configuration can be
written to a buffer exactly if it has that size, and every buffer that can be read has it. -/
theorem C24_advertised_size (s : SwapV1) (dst : List UInt8) :
    ((∃ l, SwapVersion.pack s dst = .ok l) ↔ dst.length = SwapVersion.LATEST_LEN) ∧
      ∀ t, SwapVersion.unpack dst = .ok t → dst.length = SwapVersion.LATEST_LEN := by
  have e : SwapVersion.LATEST_LEN = 324 := rfl
  rw [e]
  refine ⟨⟨?_, ?_⟩, fun t h => ((C25_accepts dst).1 ⟨t, h⟩).1⟩
  · rintro ⟨l, h⟩
    by_contra hc
    obtain ⟨x, hx⟩ := C24_wrong_size s dst hc
    rw [hx] at h
    cases h
  · intro h
    obtain ⟨l, h, _⟩ := C24_round_trip s dst h
    exact ⟨l, h⟩

example : ∃ l, SwapVersion.pack sampleState (List.replicate SwapVersion.LATEST_LEN 7) = .ok l :=
  (C24_advertised_size sampleState _).1.2 List.length_replicate

theorem take_drop_append {l : List UInt8} (a n : Nat) :
    (l.drop a).take n ++ l.drop (a + n) = l.drop a := by
  rw [← List.drop_drop]
  exact List.take_append_drop n _

theorem packFees_unpack {l : List UInt8} (h : 64 ≤ l.length) :
    packFees (unpackFees l) ++ l.drop 64 = l := by
  unfold packFees unpackFees
  simp only []
  rw [leBytes_u64At (off := 0) (by omega), leBytes_u64At (off := 8) (by omega),
    leBytes_u64At (off := 16) (by omega), leBytes_u64At (off := 24) (by omega),
    leBytes_u64At (off := 32) (by omega), leBytes_u64At (off := 40) (by omega),
    leBytes_u64At (off := 48) (by omega), leBytes_u64At (off := 56) (by omega)]
  simp only [List.append_assoc]
  rw [take_drop_append 56 8, take_drop_append 48 8, take_drop_append 40 8, take_drop_append 32 8,
    take_drop_append 24 8, take_drop_append 16 8, take_drop_append 8 8, take_drop_append 0 8]
  rfl

theorem packCurve_unpack {l : List UInt8} {c : Curve} (h : 33 ≤ l.length)
    (hu : unpackCurve l = .ok c) : packCurve c l = l := by
  have hne : ∃ t rest, l = t :: rest := by
    cases l with
    | nil => simp at h
    | cons t rest => exact ⟨t, rest, rfl⟩
  have hcons : ∀ t, byteAt l 0 = t → t :: l.drop 1 = l := by
    obtain ⟨t, rest, rfl⟩ := hne
    intro u hu
    rw [← hu]; rfl
  have one : ∀ (t : UInt8), byteAt l 0 = t → t :: (leBytes (u64At l 1) ++ l.drop (1 + 8)) = l := by
    intro t ht
    rw [leBytes_u64At (by omega), take_drop_append 1 8, hcons t ht]
  unfold unpackCurve at hu
  simp only [] at hu
  unfold packCurve
  split at hu
  · rename_i h0
    cases hu
    exact hcons _ h0
  · split at hu
    · rename_i h0
      cases hu
      simp only [curveTag, packCalc, leBytes_length]
      exact one _ h0
    · split at hu
      · rename_i h0
        cases hu
        simp only [curveTag, packCalc, leBytes_length]
        exact one _ h0
      · split at hu
        · rename_i h0
          cases hu
          simp only [curveTag, packCalc, leBytes_length]
          exact one _ h0
        · split at hu
          · rename_i h0
            cases hu
            simp only [curveTag, packCalc, leBytes_length, List.length_append]
            rw [leBytes_u64At (off := 1) (by omega), leBytes_u64At (off := 9) (by omega),
              leBytes_u64At (off := 17) (by omega), leBytes_u64At (off := 25) (by omega)]
            simp only [List.append_assoc]
            rw [show 1 + (8 + 8 + 8 + 8) = 25 + 8 from rfl, take_drop_append 25 8,
              take_drop_append 17 8, take_drop_append 9 8, take_drop_append 1 8]
            exact hcons _ h0
          · cases hu

/-- C25.  Nothing is misread: writing a configuration that was read back into the buffer it was
read from reproduces that buffer byte for byte. -/
theorem C25_faithful (l : List UInt8) (s : SwapV1) (h : SwapVersion.unpack l = .ok s) :
    SwapVersion.pack s l = .ok l ∧ s.is_initialized = true := by
  obtain ⟨rest, rfl, hl, hu, hi⟩ := unpack_inv h
  obtain ⟨hf, hc, h1, h2, h3, h4, h5, h6, h7, h8, h9⟩ := unpackFromSlice_inv hu
  refine ⟨?_, hi⟩
  unfold SwapVersion.pack SwapV1.pack
  simp only []
  rw [if_neg (by rw [hl]; decide)]
  have key : SwapV1.packIntoSlice s rest = rest := by
    unfold SwapV1.packIntoSlice
    rw [packCurve_unpack (by rw [List.length_drop]; omega) hc, h1, h2, h3, h4, h5, h6, h7, h8, h9, hi]
    have e1 : packFees (unpackFees (rest.drop 226)) ++ rest.drop 290 = rest.drop 226 := by
      have := packFees_unpack (l := rest.drop 226) (by rw [List.length_drop]; omega)
      rw [List.drop_drop] at this
      exact this
    rw [bytes_keyAt (off := 2) (by omega), bytes_keyAt (off := 34) (by omega),
      bytes_keyAt (off := 66) (by omega), bytes_keyAt (off := 98) (by omega),
      bytes_keyAt (off := 130) (by omega), bytes_keyAt (off := 162) (by omega),
      bytes_keyAt (off := 194) (by omega)]
    simp only [List.append_assoc]
    rw [e1, take_drop_append 194 32, take_drop_append 162 32, take_drop_append 130 32,
      take_drop_append 98 32, take_drop_append 66 32, take_drop_append 34 32,
      take_drop_append 2 32]
    have hb : byteAt rest 0 = 1 := by
      rcases hf with ⟨_, h⟩ | ⟨h, _⟩
      · rw [hi] at h; cases h
      · exact h
    match rest, hl with
    | x :: y :: tl, _ =>
      have hx : x = 1 := hb
      rw [hx]
      rfl
  rw [key]
  rfl

/-- C25.  Reading never aborts. -/
theorem C25_no_panic (l : List UInt8) : SwapVersion.unpack l ≠ .error .Panic := by
  unfold SwapVersion.unpack
  cases l with
  | nil => intro h; cases h
  | cons v rest =>
    simp only []
    split
    · unfold SwapV1.unpack
      split
      · intro h; cases h
      · intro h
        have hp : ∀ x : Except Err SwapV1, x ≠ .error .Panic →
            (x >>= fun s => if s.is_initialized = true then .ok s else
              .error .UninitializedAccount) ≠ .error .Panic := by
          intro x hx
          cases x with
          | error e =>
            intro h
            apply hx
            have : (Except.error e : Except Err SwapV1) = .error .Panic := h
            exact this
          | ok s =>
            show (if s.is_initialized = true then (.ok s : Except Err SwapV1) else
              .error .UninitializedAccount) ≠ _
            split
            · intro h; cases h
            · intro h; cases h
        refine hp _ ?_ h
        unfold SwapV1.unpackFromSlice
        have hc : unpackCurve (rest.drop 290) ≠ .error .Panic := by
          unfold unpackCurve
          simp only []
          repeat' split
          all_goals (intro h; cases h)
        cases hu : unpackCurve (rest.drop 290) with
        | ok c =>
          split
          · intro h; cases h
          · split <;> (intro h; cases h)
        | error e =>
          rw [hu] at hc
          have he : e ≠ .Panic := fun h => hc (by rw [h])
          split
          · intro h; cases h; exact he rfl
          · split
            · intro h; cases h; exact he rfl
            · intro h; cases h
    · intro h; cases h

example : WellFormed ((1 : UInt8) :: SwapV1.packIntoSlice sampleState (List.replicate 323 7)) :=
  (C25_accepts _).1 ⟨sampleState, by decide +kernel⟩
example : SwapVersion.unpack (List.replicate 324 1) =
    .ok (SwapV1.mk true 1 (.fill 1) (.fill 1) (.fill 1) (.fill 1) (.fill 1) (.fill 1) (.fill 1)
      ⟨72340172838076673, 72340172838076673, 72340172838076673, 72340172838076673,
        72340172838076673, 72340172838076673, 72340172838076673, 72340172838076673⟩
      (.constantPrice 72340172838076673)) := by decide +kernel
example : SwapVersion.unpack (List.replicate 324 4) = .error .UninitializedAccount := by
  decide +kernel

end Props
end Verif
