import Verif.Spec.Ledger
import Verif.Model.Exec
import Verif.Lemmas.Curves
import Mathlib.Tactic.Ring

/-
Inversion and effect lemmas for the token operations.
-/

namespace Verif
open Spec

/-! ### Inverting error monads -/

theorem req_bind {α : Type} {c : Prop} [Decidable c] {e : Err} {f : Unit → Except Err α} {b : α} :
    (require c e >>= f) = .ok b ↔ c ∧ f () = .ok b := by
  unfold require
  split
  · rename_i h; exact ⟨fun h' => ⟨h, h'⟩, fun h' => h'.2⟩
  · rename_i h; constructor
    · intro h'; cases h'
    · intro h'; exact absurd h'.1 h

theorem req_ok {c : Prop} [Decidable c] {e : Err} {u : Unit} : require c e = .ok u ↔ c := by
  unfold require
  split
  · rename_i h; exact ⟨fun _ => h, fun _ => rfl⟩
  · rename_i h; constructor
    · intro h'; cases h'
    · intro h'; exact absurd h' h

theorem optErr_ok {α : Type} {o : Option α} {e : Err} {a : α} : optErr o e = .ok a ↔ o = some a := by
  cases o with
  | none => constructor
            · intro h; cases h
            · intro h; cases h
  | some x => constructor
              · intro h; cases h; rfl
              · intro h; cases h; rfl

theorem checkedAdd64_some {a b c : UInt64} :
    checkedAdd64 a b = some c ↔ c.toNat = a.toNat + b.toNat := by
  unfold checkedAdd64
  have hc := c.toNat_lt
  constructor
  · intro h
    split at h
    · rename_i hlt
      rw [← Option.some.inj h, UInt64.toNat_ofNat']
      exact Nat.mod_eq_of_lt hlt
    · cases h
  · intro h
    rw [if_pos (by rw [← h]; exact hc), ← h, UInt64.ofNat_toNat]

theorem checkedSub64_some {a b c : UInt64} :
    checkedSub64 a b = some c ↔ b.toNat ≤ a.toNat ∧ c.toNat + b.toNat = a.toNat := by
  unfold checkedSub64
  have ha := a.toNat_lt
  constructor
  · intro h
    split at h
    · rename_i hle
      rw [← Option.some.inj h, UInt64.toNat_ofNat', Nat.mod_eq_of_lt (by omega)]
      omega
    · cases h
  · intro h
    rw [if_pos h.1, show a.toNat - b.toNat = c.toNat by omega, UInt64.ofNat_toNat]

namespace Token

theorem getToken_ok {tp : Pubkey} {w : World} {k : Pubkey} {t : TokenAccount} :
    getToken tp w k = .ok t ↔ (w k).owner = tp ∧ (w k).data = .token t := by
  unfold getToken
  split
  · rename_i ho
    split
    · rename_i x hx
      constructor
      · intro h; cases h; exact ⟨ho, hx⟩
      · rintro ⟨_, h⟩; rw [hx] at h; cases h; rfl
    · rename_i hx
      constructor
      · intro h; cases h
      · rintro ⟨_, h⟩; exact absurd h (hx t)
  · rename_i ho
    constructor
    · intro h; cases h
    · rintro ⟨h, _⟩; exact absurd h ho

theorem getMint_ok {tp : Pubkey} {w : World} {k : Pubkey} {m : Mint} :
    getMint tp w k = .ok m ↔ (w k).owner = tp ∧ (w k).data = .mint m := by
  unfold getMint
  split
  · rename_i ho
    split
    · rename_i x hx
      constructor
      · intro h; cases h; exact ⟨ho, hx⟩
      · rintro ⟨_, h⟩; rw [hx] at h; cases h; rfl
    · rename_i hx
      constructor
      · intro h; cases h
      · rintro ⟨_, h⟩; exact absurd h (hx m)
  · rename_i ho
    constructor
    · intro h; cases h
    · rintro ⟨h, _⟩; exact absurd h ho

theorem authorize_ok {signed : Pubkey → Bool} {t t' : TokenAccount} {a : Pubkey} {x : UInt64}
    (h : authorize signed t a x = .ok t') :
    signed a = true ∧ (t.delegate = some a ∨ t.owner = a) ∧ t'.mint = t.mint ∧
      t'.owner = t.owner ∧ t'.frozen = t.frozen ∧ t'.close_authority = t.close_authority ∧
      (t'.delegate = t.delegate ∨ t'.delegate = none) := by
  unfold authorize at h
  split at h
  · rename_i hd
    rw [req_bind] at h
    obtain ⟨hs, h⟩ := h
    rw [Except_bind_ok] at h
    obtain ⟨r, _, h⟩ := h
    cases h
    refine ⟨hs, Or.inl hd, rfl, rfl, rfl, rfl, ?_⟩
    simp only []
    split
    · exact Or.inr rfl
    · exact Or.inl rfl
  · unfold validateOwner at h
    rw [Except_bind_ok] at h
    obtain ⟨_, h1, h⟩ := h
    rw [req_bind, req_ok] at h1
    cases h
    exact ⟨h1.2, Or.inr h1.1, rfl, rfl, rfl, rfl, Or.inl rfl⟩

end Token

/-! ### Observing updates -/

theorem setData_data (w : World) (k k' : Pubkey) (d : Data) :
    (w.setData k d k').data = if k' = k then d else (w k').data := by
  unfold World.setData
  split <;> rfl

theorem setData_owner (w : World) (k k' : Pubkey) (d : Data) :
    (w.setData k d k').owner = (w k').owner := by
  unfold World.setData
  split
  · rename_i h; rw [h]
  · rfl

theorem tokenAt_some {w : World} {k : Pubkey} {t : TokenAccount} :
    tokenAt w k = some t ↔ (w k).data = .token t := by
  unfold tokenAt
  split
  · rename_i x hx; rw [hx]; constructor
    · intro h; cases h; rfl
    · intro h; cases h; rfl
  · rename_i hx; constructor
    · intro h; cases h
    · intro h; exact absurd h (hx t)

theorem mintAt_some {w : World} {k : Pubkey} {m : Mint} :
    mintAt w k = some m ↔ (w k).data = .mint m := by
  unfold mintAt
  split
  · rename_i x hx; rw [hx]; constructor
    · intro h; cases h; rfl
    · intro h; cases h; rfl
  · rename_i hx; constructor
    · intro h; cases h
    · intro h; exact absurd h (hx m)

theorem bal_token {w : World} {k : Pubkey} {t : TokenAccount} (h : (w k).data = .token t) :
    bal w k = t.amount.toNat := by
  unfold bal
  rw [tokenAt_some.2 h]

theorem bal_mint {w : World} {k : Pubkey} {m : Mint} (h : (w k).data = .mint m) : bal w k = 0 := by
  unfold bal tokenAt
  rw [h]

theorem supply_mint {w : World} {k : Pubkey} {m : Mint} (h : (w k).data = .mint m) :
    supply w k = m.supply.toNat := by
  unfold supply
  rw [mintAt_some.2 h]

theorem supply_token {w : World} {k : Pubkey} {t : TokenAccount} (h : (w k).data = .token t) :
    supply w k = 0 := by
  unfold supply mintAt
  rw [h]

theorem bal_congr {w w' : World} {k : Pubkey} (h : (w' k).data = (w k).data) :
    bal w' k = bal w k := by
  unfold bal tokenAt; rw [h]

theorem supply_congr {w w' : World} {k : Pubkey} (h : (w' k).data = (w k).data) :
    supply w' k = supply w k := by
  unfold supply mintAt; rw [h]

theorem Spec.DataFrame.refl (d : Data) : DataFrame d d := by
  cases d with
  | token t => exact ⟨rfl, rfl, rfl, rfl, Or.inl rfl⟩
  | mint m => exact ⟨rfl, rfl⟩
  | raw b => exact rfl

theorem Spec.DataFrame.trans {a b c : Data} (h1 : DataFrame a b) (h2 : DataFrame b c) :
    DataFrame a c := by
  cases a with
  | token t => cases b with
    | token t1 => cases c with
      | token t2 =>
        obtain ⟨a1, a2, a3, a4, a5⟩ := h1
        obtain ⟨b1, b2, b3, b4, b5⟩ := h2
        refine ⟨b1.trans a1, b2.trans a2, b3.trans a3, b4.trans a4, ?_⟩
        rcases b5 with b5 | b5
        · rw [b5]; exact a5
        · exact Or.inr b5
      | mint m => exact h2.elim
      | raw b => exact h2.elim
    | mint m => exact h1.elim
    | raw b => exact h1.elim
  | mint t => cases b with
    | mint t1 => cases c with
      | mint t2 => exact ⟨h2.1.trans h1.1, h2.2.trans h1.2⟩
      | token m => exact h2.elim
      | raw b => exact h2.elim
    | token m => exact h1.elim
    | raw b => exact h1.elim
  | raw t => cases b with
    | raw t1 => cases c with
      | raw t2 => exact Eq.trans (b := t1) h2 h1
      | token m => exact h2.elim
      | mint b => exact h2.elim
    | token m => exact h1.elim
    | mint b => exact h1.elim

theorem Spec.Frame.refl (w : World) : Frame w w := fun k => ⟨rfl, DataFrame.refl _⟩

theorem Spec.Frame.trans {a b c : World} (h1 : Frame a b) (h2 : Frame b c) : Frame a c :=
  fun k => ⟨(h2 k).1.trans (h1 k).1, DataFrame.trans (h1 k).2 (h2 k).2⟩

theorem Spec.Frame.raw {w w' : World} (h : Frame w w') {k : Pubkey} {b : List UInt8}
    (hk : (w k).data = .raw b) : (w' k).data = .raw b := by
  have := (h k).2
  rw [hk] at this
  cases hd : (w' k).data with
  | raw b' => rw [hd] at this; rw [show b' = b from this]
  | token t => rw [hd] at this; exact this.elim
  | mint t => rw [hd] at this; exact this.elim

theorem Spec.Frame.token {w w' : World} (h : Frame w w') {k : Pubkey} {t : TokenAccount}
    (hk : (w k).data = .token t) : ∃ t', (w' k).data = .token t' ∧ t'.mint = t.mint ∧
      t'.owner = t.owner ∧ t'.frozen = t.frozen ∧ t'.close_authority = t.close_authority ∧
      (t'.delegate = t.delegate ∨ t'.delegate = none) := by
  have := (h k).2
  rw [hk] at this
  cases hd : (w' k).data with
  | token t' => rw [hd] at this; exact ⟨t', rfl, this⟩
  | raw t => rw [hd] at this; exact this.elim
  | mint t => rw [hd] at this; exact this.elim

theorem Spec.Frame.token_inv {w w' : World} (h : Frame w w') {k : Pubkey} {t' : TokenAccount}
    (hk : (w' k).data = .token t') : ∃ t, (w k).data = .token t ∧ t'.mint = t.mint ∧
      t'.owner = t.owner ∧ t'.frozen = t.frozen ∧ t'.close_authority = t.close_authority ∧
      (t'.delegate = t.delegate ∨ t'.delegate = none) := by
  have := (h k).2
  rw [hk] at this
  cases hd : (w k).data with
  | token t => rw [hd] at this; exact ⟨t, rfl, this⟩
  | raw t => rw [hd] at this; exact this.elim
  | mint t => rw [hd] at this; exact this.elim

theorem Spec.Frame.mint {w w' : World} (h : Frame w w') {k : Pubkey} {m : Mint}
    (hk : (w k).data = .mint m) : ∃ m', (w' k).data = .mint m' ∧
      m'.mint_authority = m.mint_authority ∧ m'.freeze_authority = m.freeze_authority := by
  have := (h k).2
  rw [hk] at this
  cases hd : (w' k).data with
  | mint m' => rw [hd] at this; exact ⟨m', rfl, this⟩
  | raw t => rw [hd] at this; exact this.elim
  | token t => rw [hd] at this; exact this.elim

theorem Spec.Frame.mint_inv {w w' : World} (h : Frame w w') {k : Pubkey} {m' : Mint}
    (hk : (w' k).data = .mint m') : ∃ m, (w k).data = .mint m ∧
      m'.mint_authority = m.mint_authority ∧ m'.freeze_authority = m.freeze_authority := by
  have := (h k).2
  rw [hk] at this
  cases hd : (w k).data with
  | mint m => rw [hd] at this; exact ⟨m, rfl, this⟩
  | raw t => rw [hd] at this; exact this.elim
  | token t => rw [hd] at this; exact this.elim

theorem Spec.Frame.mintOf {w w' : World} (h : Frame w w') (k : Pubkey) : mintOf w' k = mintOf w k := by
  unfold Spec.mintOf tokenAt
  cases hd : (w k).data with
  | token t =>
    obtain ⟨t', h1, h2, _⟩ := h.token hd
    rw [h1]
    simp only [Option.map_some, h2]
  | mint m =>
    obtain ⟨m', h1, _⟩ := h.mint hd
    rw [h1]
  | raw b =>
    rw [h.raw hd]

/-! ### The three token operations -/

/-- Effect of moving `x` from `src` to `dst` on authority `a`. -/
structure Moved (signed : Pubkey → Bool) (tp src dst a : Pubkey) (x : UInt64) (w w' : World) :
    Prop where
  frame : Frame w w'
  bal : ∀ k, bal w' k = bal w k + when (k = dst) x.toNat - when (k = src) x.toNat
  supply : ∀ k, supply w' k = supply w k
  same : ∀ k, k ≠ src → k ≠ dst → w' k = w k
  srcTok : ∃ s, (w src).owner = tp ∧ (w src).data = .token s ∧ x.toNat ≤ s.amount.toNat ∧
    (s.delegate = some a ∨ s.owner = a)
  dstTok : ∃ d, (w dst).owner = tp ∧ (w dst).data = .token d
  mints : mintOf w src = mintOf w dst
  signed : signed a = true

/-- Effect of minting `x` of `mint` to `dst` on authority `a`. -/
structure Minted (signed : Pubkey → Bool) (tp mint dst a : Pubkey) (x : UInt64) (w w' : World) :
    Prop where
  frame : Frame w w'
  bal : ∀ k, bal w' k = bal w k + when (k = dst) x.toNat
  supply : ∀ k, supply w' k = supply w k + when (k = mint) x.toNat
  same : ∀ k, k ≠ mint → k ≠ dst → w' k = w k
  mintAcc : ∃ m, (w mint).owner = tp ∧ (w mint).data = .mint m ∧ m.mint_authority = some a
  dstTok : ∃ d, (w dst).owner = tp ∧ (w dst).data = .token d ∧ d.mint = mint
  signed : signed a = true

/-- Effect of burning `x` of `mint` from `src` on authority `a`. -/
structure Burnt (signed : Pubkey → Bool) (tp src mint a : Pubkey) (x : UInt64) (w w' : World) :
    Prop where
  frame : Frame w w'
  bal : ∀ k, bal w' k = bal w k - when (k = src) x.toNat
  supply : ∀ k, supply w' k = supply w k - when (k = mint) x.toNat
  same : ∀ k, k ≠ mint → k ≠ src → w' k = w k
  mintAcc : ∃ m, (w mint).owner = tp ∧ (w mint).data = .mint m
  srcTok : ∃ s, (w src).owner = tp ∧ (w src).data = .token s ∧ x.toNat ≤ s.amount.toNat ∧
    s.mint = mint ∧ (s.delegate = some a ∨ s.owner = a)
  signed : signed a = true

namespace Token

theorem transfer_ok {tp : Pubkey} {signed : Pubkey → Bool} {src dst a : Pubkey} {x : UInt64}
    {w w' : World} (h : transfer tp signed src dst a x w = .ok w') :
    Moved signed tp src dst a x w w' := by
  unfold transfer at h
  rw [Except_bind_ok] at h
  obtain ⟨s, hs, h⟩ := h
  rw [Except_bind_ok] at h
  obtain ⟨d, hd, h⟩ := h
  rw [req_bind, req_bind, req_bind] at h
  obtain ⟨hf, hle, hm, h⟩ := h
  rw [Except_bind_ok] at h
  obtain ⟨s', hau, h⟩ := h
  rw [getToken_ok] at hs hd
  obtain ⟨a1, a2, a3, a4, a5, a6, a7⟩ := authorize_ok hau
  rw [UInt64.le_iff_toNat_le] at hle
  have hmints : Spec.mintOf w src = Spec.mintOf w dst := by
    unfold Spec.mintOf
    rw [tokenAt_some.2 hs.2, tokenAt_some.2 hd.2, Option.map_some, Option.map_some, hm]
  split at h
  · rename_i hsd
    cases h
    refine ⟨Frame.refl _, fun k => ?_, fun k => rfl, fun k _ _ => rfl,
      ⟨s, hs.1, hs.2, hle, a2⟩, ⟨d, hd⟩, hmints, a1⟩
    rw [hsd]; omega
  · rename_i hsd
    rw [Except_bind_ok] at h
    obtain ⟨sa, hsa, h⟩ := h
    rw [Except_bind_ok] at h
    obtain ⟨da, hda, h⟩ := h
    rw [optErr_ok, checkedSub64_some] at hsa
    rw [optErr_ok, checkedAdd64_some] at hda
    cases h
    have hdata : ∀ k, (((w.setData src (.token { s' with amount := sa })).setData dst
        (.token { d with amount := da })) k).data =
        if k = dst then .token { d with amount := da }
        else if k = src then .token { s' with amount := sa } else (w k).data := by
      intro k; rw [setData_data, setData_data]
    have howner : ∀ k, (((w.setData src (.token { s' with amount := sa })).setData dst
        (.token { d with amount := da })) k).owner = (w k).owner := by
      intro k; rw [setData_owner, setData_owner]
    refine ⟨fun k => ⟨howner k, ?_⟩, fun k => ?_, fun k => ?_, fun k h1 h2 => ?_,
      ⟨s, hs.1, hs.2, hle, a2⟩, ⟨d, hd⟩, hmints, a1⟩
    · rw [hdata]
      split
      · rename_i hk; rw [hk, hd.2]
        exact ⟨rfl, rfl, rfl, rfl, Or.inl rfl⟩
      · split
        · rename_i hk; rw [hk, hs.2]
          exact ⟨a3, a4, a5, a6, a7⟩
        · exact DataFrame.refl _
    · by_cases hkd : k = dst
      · have hks : k ≠ src := fun hh => hsd (hh.symm.trans hkd)
        have e1 := hdata k
        rw [if_pos hkd] at e1
        rw [bal_token e1, bal_token (w := w) (by rw [hkd]; exact hd.2)]
        unfold Spec.when
        rw [if_pos hkd, if_neg hks]
        simp only []
        omega
      · by_cases hks : k = src
        · have e1 := hdata k
          rw [if_neg hkd, if_pos hks] at e1
          rw [bal_token e1, bal_token (w := w) (by rw [hks]; exact hs.2)]
          unfold Spec.when
          rw [if_neg hkd, if_pos hks]
          simp only []
          omega
        · have e1 := hdata k
          rw [if_neg hkd, if_neg hks] at e1
          rw [bal_congr e1]
          unfold Spec.when
          rw [if_neg hkd, if_neg hks]
          omega
    · have e1 := hdata k
      by_cases hkd : k = dst
      · rw [if_pos hkd] at e1
        rw [supply_token e1, supply_token (w := w) (by rw [hkd]; exact hd.2)]
      · by_cases hks : k = src
        · rw [if_neg hkd, if_pos hks] at e1
          rw [supply_token e1, supply_token (w := w) (by rw [hks]; exact hs.2)]
        · rw [if_neg hkd, if_neg hks] at e1
          exact supply_congr e1
    · unfold World.setData
      rw [if_neg h2, if_neg h1]

theorem mintTo_ok {tp : Pubkey} {signed : Pubkey → Bool} {mint dst a : Pubkey} {x : UInt64}
    {w w' : World} (h : mintTo tp signed mint dst a x w = .ok w') :
    Minted signed tp mint dst a x w w' := by
  unfold mintTo at h
  rw [Except_bind_ok] at h
  obtain ⟨d, hd, h⟩ := h
  rw [req_bind, req_bind] at h
  obtain ⟨hf, hdm, h⟩ := h
  rw [Except_bind_ok] at h
  obtain ⟨m, hm, h⟩ := h
  rw [Except_bind_ok] at h
  obtain ⟨au, hau, h⟩ := h
  rw [Except_bind_ok] at h
  obtain ⟨_, hv, h⟩ := h
  rw [Except_bind_ok] at h
  obtain ⟨da, hda, h⟩ := h
  rw [Except_bind_ok] at h
  obtain ⟨ms, hms, h⟩ := h
  rw [getToken_ok] at hd
  rw [getMint_ok] at hm
  unfold validateOwner at hv
  rw [req_bind, req_ok] at hv
  rw [optErr_ok] at hau
  rw [optErr_ok, checkedAdd64_some] at hda hms
  cases h
  have hne : dst ≠ mint := by
    intro hh
    have := hd.2
    rw [hh, hm.2] at this
    cases this
  have hdata : ∀ k, (((w.setData dst (.token { d with amount := da })).setData mint
      (.mint { m with supply := ms })) k).data =
      if k = mint then .mint { m with supply := ms }
      else if k = dst then .token { d with amount := da } else (w k).data := by
    intro k; rw [setData_data, setData_data]
  refine ⟨fun k => ⟨by rw [setData_owner, setData_owner], ?_⟩, fun k => ?_, fun k => ?_,
    fun k h1 h2 => ?_, ⟨m, hm.1, hm.2, by rw [hau, hv.1]⟩, ⟨d, hd.1, hd.2, hdm⟩, hv.2⟩
  · rw [hdata]
    split
    · rename_i hk; rw [hk, hm.2]; exact ⟨rfl, rfl⟩
    · split
      · rename_i hk; rw [hk, hd.2]
        exact ⟨rfl, rfl, rfl, rfl, Or.inl rfl⟩
      · exact DataFrame.refl _
  · have e1 := hdata k
    by_cases hk : k = mint
    · have hkd : k ≠ dst := fun hh => hne (hh.symm.trans hk)
      rw [if_pos hk] at e1
      rw [bal_mint e1, bal_mint (w := w) (by rw [hk]; exact hm.2)]
      unfold Spec.when
      rw [if_neg hkd]
      omega
    · by_cases hkd : k = dst
      · rw [if_neg hk, if_pos hkd] at e1
        rw [bal_token e1, bal_token (w := w) (by rw [hkd]; exact hd.2)]
        unfold Spec.when
        rw [if_pos hkd]
        simp only []
        omega
      · rw [if_neg hk, if_neg hkd] at e1
        rw [bal_congr e1]
        unfold Spec.when
        rw [if_neg hkd]
        omega
  · have e1 := hdata k
    by_cases hk : k = mint
    · rw [if_pos hk] at e1
      rw [supply_mint e1, supply_mint (w := w) (by rw [hk]; exact hm.2)]
      unfold Spec.when
      rw [if_pos hk]
      simp only []
      omega
    · unfold Spec.when
      rw [if_neg hk]
      by_cases hkd : k = dst
      · rw [if_neg hk, if_pos hkd] at e1
        rw [supply_token e1, supply_token (w := w) (by rw [hkd]; exact hd.2)]
        omega
      · rw [if_neg hk, if_neg hkd] at e1
        rw [supply_congr e1]
        omega
  · unfold World.setData
    rw [if_neg h1, if_neg h2]

theorem burn_ok {tp : Pubkey} {signed : Pubkey → Bool} {src mint a : Pubkey} {x : UInt64}
    {w w' : World} (h : burn tp signed src mint a x w = .ok w') :
    Burnt signed tp src mint a x w w' := by
  unfold burn at h
  rw [Except_bind_ok] at h
  obtain ⟨s, hs, h⟩ := h
  rw [Except_bind_ok] at h
  obtain ⟨m, hm, h⟩ := h
  rw [req_bind, req_bind, req_bind] at h
  obtain ⟨hf, hle, hsm, h⟩ := h
  rw [Except_bind_ok] at h
  obtain ⟨s', hau, h⟩ := h
  rw [Except_bind_ok] at h
  obtain ⟨sa, hsa, h⟩ := h
  rw [Except_bind_ok] at h
  obtain ⟨ms, hms, h⟩ := h
  rw [getToken_ok] at hs
  rw [getMint_ok] at hm
  rw [optErr_ok, checkedSub64_some] at hsa hms
  obtain ⟨a1, a2, a3, a4, a5, a6, a7⟩ := authorize_ok hau
  rw [UInt64.le_iff_toNat_le] at hle
  cases h
  have hne : src ≠ mint := by
    intro hh
    have := hs.2
    rw [hh, hm.2] at this
    cases this
  have hdata : ∀ k, (((w.setData src (.token { s' with amount := sa })).setData mint
      (.mint { m with supply := ms })) k).data =
      if k = mint then .mint { m with supply := ms }
      else if k = src then .token { s' with amount := sa } else (w k).data := by
    intro k; rw [setData_data, setData_data]
  refine ⟨fun k => ⟨by rw [setData_owner, setData_owner], ?_⟩, fun k => ?_, fun k => ?_,
    fun k h1 h2 => ?_, ⟨m, hm.1, hm.2⟩, ⟨s, hs.1, hs.2, hle, hsm, a2⟩, a1⟩
  · rw [hdata]
    split
    · rename_i hk; rw [hk, hm.2]; exact ⟨rfl, rfl⟩
    · split
      · rename_i hk; rw [hk, hs.2]
        exact ⟨a3, a4, a5, a6, a7⟩
      · exact DataFrame.refl _
  · have e1 := hdata k
    by_cases hk : k = mint
    · have hkd : k ≠ src := fun hh => hne (hh.symm.trans hk)
      rw [if_pos hk] at e1
      rw [bal_mint e1, bal_mint (w := w) (by rw [hk]; exact hm.2)]
      unfold Spec.when
      rw [if_neg hkd]
      omega
    · by_cases hkd : k = src
      · rw [if_neg hk, if_pos hkd] at e1
        rw [bal_token e1, bal_token (w := w) (by rw [hkd]; exact hs.2)]
        unfold Spec.when
        rw [if_pos hkd]
        simp only []
        omega
      · rw [if_neg hk, if_neg hkd] at e1
        rw [bal_congr e1]
        unfold Spec.when
        rw [if_neg hkd]
        omega
  · have e1 := hdata k
    by_cases hk : k = mint
    · rw [if_pos hk] at e1
      rw [supply_mint e1, supply_mint (w := w) (by rw [hk]; exact hm.2)]
      unfold Spec.when
      rw [if_pos hk]
      simp only []
      omega
    · unfold Spec.when
      rw [if_neg hk]
      by_cases hkd : k = src
      · rw [if_neg hk, if_pos hkd] at e1
        rw [supply_token e1, supply_token (w := w) (by rw [hkd]; exact hs.2)]
        omega
      · rw [if_neg hk, if_neg hkd] at e1
        rw [supply_congr e1]
        omega
  · unfold World.setData
    rw [if_neg h1, if_neg h2]

end Token
end Verif
