import Verif.Model.State
import Verif.Lemmas.Basic

/-
Byte-level facts about the packed pool state.
-/

namespace Verif
namespace State

theorem leBytes_eq (x : UInt64) : leBytes x =
    [UInt8.ofNat (x.toNat % 256), UInt8.ofNat (x.toNat / 256 % 256),
     UInt8.ofNat (x.toNat / 65536 % 256), UInt8.ofNat (x.toNat / 16777216 % 256),
     UInt8.ofNat (x.toNat / 4294967296 % 256), UInt8.ofNat (x.toNat / 1099511627776 % 256),
     UInt8.ofNat (x.toNat / 281474976710656 % 256),
     UInt8.ofNat (x.toNat / 72057594037927936 % 256)] := by
  unfold leBytes
  simp [List.range, List.range.loop]

theorem leBytes_length (x : UInt64) : (leBytes x).length = 8 := by
  rw [leBytes_eq]; rfl

theorem u8_toNat_ofNat_mod (n : Nat) : (UInt8.ofNat (n % 256)).toNat = n % 256 := by
  rw [UInt8.toNat_ofNat']
  exact Nat.mod_mod _ _

theorem leNat_leBytes (x : UInt64) : leNat (leBytes x) = x.toNat := by
  have hx := x.toNat_lt
  rw [leBytes_eq]
  simp only [leNat, u8_toNat_ofNat_mod]
  generalize x.toNat = n at *
  omega

theorem leNat_lt : ∀ bs : List UInt8, leNat bs < 256 ^ bs.length
  | [] => by decide
  | b :: bs => by
    have h1 := leNat_lt bs
    have h2 : b.toNat < 256 := b.toNat_lt
    rw [List.length_cons, Nat.pow_succ]
    unfold leNat
    omega

theorem map_leNat : ∀ bs : List UInt8,
    (List.range bs.length).map (fun i => UInt8.ofNat (leNat bs / 256 ^ i % 256)) = bs
  | [] => rfl
  | b :: bs => by
    have h2 : b.toNat < 256 := b.toNat_lt
    rw [List.length_cons, List.range_succ_eq_map, List.map_cons, List.map_map]
    have e1 : leNat (b :: bs) % 256 = b.toNat := by unfold leNat; omega
    have e2 : leNat (b :: bs) / 256 = leNat bs := by
      show (b.toNat + 256 * leNat bs) / 256 = leNat bs
      omega
    rw [Nat.pow_zero, Nat.div_one, e1, UInt8.ofNat_toNat]
    congr 1
    refine Eq.trans (List.map_congr_left ?_) (map_leNat bs)
    intro i _
    show UInt8.ofNat (leNat (b :: bs) / 256 ^ (i + 1) % 256) = _
    rw [Nat.pow_succ, Nat.mul_comm, ← Nat.div_div_eq_div_mul, e2]

theorem leBytes_leNat (bs : List UInt8) (h : bs.length = 8) :
    leBytes (UInt64.ofNat (leNat bs)) = bs := by
  have h1 := leNat_lt bs
  have e0 : (UInt64.ofNat (leNat bs)).toNat = leNat bs := by
    rw [UInt64.toNat_ofNat']
    rw [h] at h1
    exact Nat.mod_eq_of_lt h1
  unfold leBytes
  rw [e0, ← h]
  exact map_leNat bs

theorem drop_step {l a b : List UInt8} {off n : Nat} (h : l.drop off = a ++ b)
    (ha : a.length = n) : l.drop (off + n) = b := by
  rw [← List.drop_drop, h, ← ha, List.drop_left]

theorem u64At_of {l b : List UInt8} {off : Nat} {x : UInt64} (h : l.drop off = leBytes x ++ b) :
    u64At l off = x := by
  unfold u64At
  rw [h, ← leBytes_length x, List.take_left, leNat_leBytes, UInt64.ofNat_toNat]

theorem keyAt_of {l b : List UInt8} {off : Nat} {k : Pubkey} (h : l.drop off = k.bytes ++ b) :
    keyAt l off = k := by
  cases k with
  | mk bs hl =>
    unfold keyAt
    have : (l.drop off ++ List.replicate 32 0).take 32 = bs := by
      rw [h, List.append_assoc, ← hl, List.take_left]
    simp only [this]

theorem leBytes_u64At {l : List UInt8} {off : Nat} (h : off + 8 ≤ l.length) :
    leBytes (u64At l off) = (l.drop off).take 8 := by
  unfold u64At
  apply leBytes_leNat
  rw [List.length_take, List.length_drop]
  omega

theorem bytes_keyAt {l : List UInt8} {off : Nat} (h : off + 32 ≤ l.length) :
    (keyAt l off).bytes = (l.drop off).take 32 := by
  unfold keyAt
  simp only []
  rw [List.take_append_of_le_length]
  rw [List.length_drop]
  omega

theorem packCalc_length (c : Curve) : (packCalc c).length ≤ 32 := by
  cases c <;> simp [packCalc, leBytes_length]

theorem packCurve_length (c : Curve) (old : List UInt8) (h : old.length = 33) :
    (packCurve c old).length = 33 := by
  unfold packCurve
  have := packCalc_length c
  simp only [List.length_cons, List.length_append, List.length_drop]
  omega

theorem unpack_packFees (f : Fees) (b : List UInt8) : unpackFees (packFees f ++ b) = f := by
  have h0 : (packFees f ++ b).drop 0 = leBytes f.trade_fee_numerator ++
      (leBytes f.trade_fee_denominator ++ (leBytes f.owner_trade_fee_numerator ++
      (leBytes f.owner_trade_fee_denominator ++ (leBytes f.owner_withdraw_fee_numerator ++
      (leBytes f.owner_withdraw_fee_denominator ++ (leBytes f.host_fee_numerator ++
      (leBytes f.host_fee_denominator ++ b))))))) := by
    unfold packFees
    simp only [List.append_assoc, List.drop_zero]
  have h1 := drop_step h0 (leBytes_length _)
  have h2 := drop_step h1 (leBytes_length _)
  have h3 := drop_step h2 (leBytes_length _)
  have h4 := drop_step h3 (leBytes_length _)
  have h5 := drop_step h4 (leBytes_length _)
  have h6 := drop_step h5 (leBytes_length _)
  have h7 := drop_step h6 (leBytes_length _)
  unfold unpackFees
  rw [u64At_of h0, u64At_of h1, u64At_of h2, u64At_of h3, u64At_of h4, u64At_of h5, u64At_of h6,
    u64At_of h7]

theorem packFees_length (f : Fees) : (packFees f).length = 64 := by
  simp [packFees, leBytes_length]

theorem unpack_packCurve (c : Curve) (old : List UInt8) :
    unpackCurve (packCurve c old) = .ok c := by
  have one : ∀ (t : UInt8) (x : UInt64) (b : List UInt8), u64At (t :: (leBytes x ++ b)) 1 = x :=
    fun t x b => u64At_of (b := b) rfl
  unfold unpackCurve packCurve
  cases c with
  | constantProduct => rfl
  | constantPrice p => simp only [curveTag, packCalc, byteAt, List.getD_cons_zero, one]; rfl
  | stable a => simp only [curveTag, packCalc, byteAt, List.getD_cons_zero, one]; rfl
  | offset o => simp only [curveTag, packCalc, byteAt, List.getD_cons_zero, one]; rfl
  | linear c =>
    simp only [curveTag, packCalc, byteAt, List.getD_cons_zero]
    generalize hb : List.drop _ old = b
    have h0 : ((30 : UInt8) :: (leBytes c.slope_numerator ++ leBytes c.slope_denominator ++
        leBytes c.initial_token_a_price_numerator ++
        leBytes c.initial_token_a_price_denominator ++ b)).drop 1 =
        leBytes c.slope_numerator ++ (leBytes c.slope_denominator ++
        (leBytes c.initial_token_a_price_numerator ++
        (leBytes c.initial_token_a_price_denominator ++ b))) := by
      simp only [List.append_assoc, List.drop_succ_cons, List.drop_zero]
    have h1 := drop_step h0 (leBytes_length _)
    have h2 := drop_step h1 (leBytes_length _)
    have h3 := drop_step h2 (leBytes_length _)
    rw [u64At_of h0, u64At_of h1, u64At_of h2, u64At_of h3]
    rfl

end State

namespace SwapV1
open State

theorem pack_length (s : SwapV1) (old : List UInt8) (h : old.length = 323) :
    (packIntoSlice s old).length = 323 := by
  unfold packIntoSlice
  have : (packCurve s.swap_curve (old.drop 290)).length = 33 :=
    packCurve_length _ _ (by rw [List.length_drop, h])
  simp only [List.length_append, List.length_cons, List.length_nil, Pubkey.len, packFees_length,
    this]

theorem unpack_pack (s : SwapV1) (old : List UInt8) :
    unpackFromSlice (packIntoSlice s old) = .ok s := by
  have h0 : (packIntoSlice s old).drop 0 = [if s.is_initialized then 1 else 0] ++ ([s.bump_seed] ++
      (s.token_program_id.bytes ++ (s.token_a.bytes ++ (s.token_b.bytes ++ (s.pool_mint.bytes ++
      (s.token_a_mint.bytes ++ (s.token_b_mint.bytes ++ (s.pool_fee_account.bytes ++
      (packFees s.fees ++ packCurve s.swap_curve (old.drop 290)))))))))) := by
    unfold packIntoSlice
    simp only [List.append_assoc, List.drop_zero]
  have h1 := drop_step h0 (n := 1) rfl
  have h2 := drop_step h1 (n := 1) rfl
  have h3 := drop_step h2 (Pubkey.len _)
  have h4 := drop_step h3 (Pubkey.len _)
  have h5 := drop_step h4 (Pubkey.len _)
  have h6 := drop_step h5 (Pubkey.len _)
  have h7 := drop_step h6 (Pubkey.len _)
  have h8 := drop_step h7 (Pubkey.len _)
  have h9 := drop_step h8 (Pubkey.len _)
  have h10 := drop_step h9 (packFees_length _)
  have b0 : byteAt (packIntoSlice s old) 0 = if s.is_initialized then 1 else 0 := rfl
  have b1 : byteAt (packIntoSlice s old) 1 = s.bump_seed := rfl
  unfold unpackFromSlice
  rw [b0, b1, keyAt_of h2, keyAt_of h3, keyAt_of h4, keyAt_of h5, keyAt_of h6, keyAt_of h7,
    keyAt_of h8, h9, unpack_packFees, h10, unpack_packCurve]
  rcases s with ⟨i, _, _, _, _, _, _, _, _, _, _⟩
  cases i <;> rfl

end SwapV1
end Verif
