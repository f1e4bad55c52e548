import Verif.Spec.Setup
import Verif.Props.Outside

/-
C85: setting up a pool from nothing.
-/

namespace Verif
namespace Props
open Spec Token Processor

variable {env : Env} {sys : Pubkey} {K : Pubkey → Prop} {S : List Pubkey}

theorem set_at (w : World) (k : Pubkey) (a : Account) : w.set k a k = a := if_pos rfl

theorem set_ne {k k' : Pubkey} (w : World) (a : Account) (h : k' ≠ k) : w.set k a k' = w k' := if_neg h

theorem set_setData (w : World) (k o : Pubkey) (d d' : Data) :
    (w.set k ⟨o, d⟩).setData k d' = w.set k ⟨o, d'⟩ := by
  funext k'
  unfold World.setData World.set
  by_cases h : k' = k
  · rw [if_pos h, if_pos h, if_pos rfl]
  · rw [if_neg h, if_neg h, if_neg h]

theorem zeros_byte (n i : Nat) : State.byteAt (List.replicate n 0) i = 0 := by
  unfold State.byteAt
  rw [List.getD_eq_getElem?_getD, List.getElem?_replicate]
  split <;> rfl

theorem uninitialized_new {tp : Pubkey} {w : World} {k : Pubkey} {n flag : Nat} :
    uninitialized tp (w.set k ⟨tp, .raw (List.replicate n 0)⟩) k n flag = .ok () := by
  unfold uninitialized
  rw [req_bind, set_at]
  refine ⟨rfl, ?_⟩
  simp only []
  rw [req_bind, req_ok]
  exact ⟨List.length_replicate, zeros_byte _ _⟩

/-- A new mint. -/
theorem new_mint {w : World} {k a : Pubkey} (hk : k ∈ S) (ho : (w k).owner = sys) :
    Deeds env sys K S w (w.set k ⟨env.tokenProgramId, .mint ⟨some a, 0, none⟩⟩) := by
  refine (Relation.ReflTransGen.single (.create k env.tokenProgramId 82 hk ho rfl)).tail
    (.token (.initializeMint k a none) ?_)
  unfold TokenInstr.exec
  simp only []
  rw [uninitialized_new, Except_bind_ok]
  exact ⟨(), rfl, congrArg Except.ok (set_setData _ _ _ _ _)⟩

/-- A new token account. -/
theorem new_account {w : World} {k m o : Pubkey} {mt : Mint} (hk : k ∈ S) (ho : (w k).owner = sys)
    (hne : m ≠ k) (hm : (w m).owner = env.tokenProgramId) (hmt : (w m).data = .mint mt) :
    Deeds env sys K S w
      (w.set k ⟨env.tokenProgramId, .token ⟨m, o, 0, none, false, 0, none⟩⟩) := by
  refine (Relation.ReflTransGen.single (.create k env.tokenProgramId 165 hk ho rfl)).tail
    (.token (.initializeAccount k m o) ?_)
  unfold TokenInstr.exec
  simp only []
  rw [uninitialized_new, Except_bind_ok]
  refine ⟨(), rfl, ?_⟩
  rw [Except_bind_ok]
  refine ⟨mt, getMint_ok.2 ?_, congrArg Except.ok (set_setData _ _ _ _ _)⟩
  rw [set_ne _ _ hne]
  exact ⟨hm, hmt⟩

/-- What signers can do who are not derived addresses is a move. -/
theorem deeds_moves {w w' : World} (hS : ∀ x ∈ S, ¬ IsPda env K x) (h : Deeds env sys K S w w') :
    Moves env sys K w w' := by
  induction h with
  | refl => exact .refl
  | tail _ hd ih =>
    refine ih.tail ?_
    cases hd with
    | token i h => exact .outside (.token S i hS h)
    | create k o n hk ho h => exact .outside (.create k o n (hS k hk) ho h)
    | instr i hk h => exact .instr S i hk hS h

/-- Paying `x` tokens into an empty account. -/
theorem pay_empty {w : World} {src dst m u o : Pubkey} {x : UInt64}
    (hp : CanPay env w src m u x.toNat) (hs : Plain env w S u) (hne : src ≠ dst)
    (hd : w dst = ⟨env.tokenProgramId, .token ⟨m, o, 0, none, false, 0, none⟩⟩) :
    ∃ w', Deed env sys K S w w' ∧ SoleOwner env w' dst m o ∧
      (∃ t, tokenAt w' dst = some t ∧ t.mint = m ∧ t.amount = x) ∧
      bal w' src = bal w src - x.toNat ∧ ∀ k, k ≠ src → k ≠ dst → w' k = w k := by
  have ht : tokenAt w dst = some ⟨m, o, 0, none, false, 0, none⟩ := tokenAt_some.2 (by rw [hd])
  have hr : CanReceive env w dst m x.toNat := by
    refine ⟨by rw [hd], _, ht, rfl, rfl, ?_⟩
    show 0 + x.toNat < _
    have := x.toNat_lt
    omega
  obtain ⟨w', hw⟩ := transfer_of (signed := approves env.tokenProgramId w S) hp hr
    (plain_approves hs) hne
  have hm := transfer_ok hw
  have hso : SoleOwner env w' dst m o :=
    (show SoleOwner env w dst m o by
      unfold SoleOwner; rw [hd]; exact ⟨rfl, _, rfl, rfl, rfl, rfl, rfl⟩).frame hm.frame
  refine ⟨w', .token (.transfer src dst u x) hw, hso, ?_, ?_, hm.same⟩
  · obtain ⟨_, t, h1, h2, _⟩ := hso
    refine ⟨t, tokenAt_some.2 h1, h2, ?_⟩
    have hb := hm.bal dst
    unfold bal at hb
    rw [ht, tokenAt_some.2 h1] at hb
    unfold Spec.when at hb
    rw [if_pos rfl, if_neg (Ne.symm hne)] at hb
    simp only [] at hb
    have h0 : ((0 : UInt64).toNat : Int) = 0 := rfl
    rw [h0] at hb
    exact UInt64.toNat_inj.1 (by omega)
  · rw [hm.bal src]
    unfold Spec.when
    rw [if_neg hne, if_pos rfl]
    omega

theorem zeros_empty (s : SwapV1) : SwapVersion.unpack (List.replicate 324 0) ≠ .ok s := by
  intro h
  have : isOk (SwapVersion.unpack (List.replicate 324 0)) = false := by decide +kernel
  rw [h] at this
  cases this

theorem room0 : (0 : UInt64).toNat + 1000000000 < 2 ^ 64 := by decide

/-- C85.  Whoever holds the tokens can set up any admissible pool, with their own signature and those
of the new addresses and no other: accounts, vaults funded with `a` token A and `b` token B, the pool
as chosen, and 10^9 pool tokens in an account of theirs.  Nothing else on the ledger changes. -/
theorem C85_setup (env : Env) (sys : Pubkey) (K : Pubkey → Prop) (he : EnvOk env K)
    (hst : sys ≠ env.tokenProgramId) (w : World) (i : Instr) (n : InitAccounts) (f : Fees) (c : Curve)
    (hi : InitOf i n f c) (hK : K n.swap)
    (hpda : n.authority = (env.findPda n.swap).1) (htp : n.tokenProgram = env.tokenProgramId)
    (hn : UnusedAddrs env sys K w [n.swap, n.poolMint, n.fee, n.destination, n.tokenA, n.tokenB])
    (u mA mB srcA srcB feeOwner : Pubkey) (a b : UInt64) (mtA mtB : Mint)
    (hu : (w u).owner ≠ env.tokenProgramId) (hup : ¬ IsPda env K u)
    (hun : u ∉ [n.swap, n.poolMint, n.fee, n.destination, n.tokenA, n.tokenB])
    (hmA : (w mA).owner = env.tokenProgramId) (hmtA : mintAt w mA = some mtA)
    (hmB : (w mB).owner = env.tokenProgramId) (hmtB : mintAt w mB = some mtB) (hne : mA ≠ mB)
    (hA : CanPay env w srcA mA u a.toNat) (hB : CanPay env w srcB mB u b.toNat)
    (hc : Startable c a b) (hf : ProperFees f) (hal : Allowed env f c feeOwner)
    (hfo : feeOwner ≠ n.authority) :
    ∃ w', Deeds env sys K
        [u, n.swap, n.poolMint, n.fee, n.destination, n.tokenA, n.tokenB] w w' ∧
      PoolAt env w' n.swap ⟨true, (env.findPda n.swap).2, env.tokenProgramId, n.tokenA, n.tokenB,
        n.poolMint, mA, mB, n.fee, f, c⟩ ∧
      bal w' n.tokenA = a.toNat ∧ bal w' n.tokenB = b.toNat ∧
      supply w' n.poolMint = 1000000000 ∧
      (∃ t, tokenAt w' n.destination = some t ∧ t.mint = n.poolMint ∧ t.owner = u ∧
        t.amount = 1000000000) ∧
      (∃ t, tokenAt w' n.fee = some t ∧ t.mint = n.poolMint ∧ t.owner = feeOwner ∧ t.amount = 0) ∧
      bal w' srcA = bal w srcA - a.toNat ∧ bal w' srcB = bal w srcB - b.toNat ∧
      ∀ k ∉ [srcA, srcB, n.swap, n.poolMint, n.fee, n.destination, n.tokenA, n.tokenB],
        w' k = w k := by
  obtain ⟨hfree, hnd, hkey⟩ := hn
  simp only [List.mem_cons, List.not_mem_nil, or_false, forall_eq_or_imp, forall_eq] at hfree
  obtain ⟨o1, o2, o3, o4, o5, o6⟩ := hfree
  simp only [List.nodup_cons, List.mem_cons, List.not_mem_nil, or_false, not_or, not_false_eq_true,
    List.nodup_nil, and_true] at hnd hun
  obtain ⟨⟨n12, n13, n14, n15, n16⟩, ⟨n23, n24, n25, n26⟩, ⟨n34, n35, n36⟩, ⟨n45, n46⟩, n56⟩ := hnd
  obtain ⟨u1, u2, u3, u4, u5, u6⟩ := hun
  have used : ∀ {x y : Pubkey}, (w x).owner = env.tokenProgramId → (w y).owner = sys → x ≠ y :=
    fun hx hy e => hst (by rw [← hy, ← hx, e])
  set S := [u, n.swap, n.poolMint, n.fee, n.destination, n.tokenA, n.tokenB] with hS
  set tp := env.tokenProgramId with htpd
  -- the accounts
  set w1 := w.set n.swap ⟨env.programId, .raw (List.replicate 324 0)⟩ with e1
  set w2 := w1.set n.poolMint ⟨tp, .mint ⟨some n.authority, 0, none⟩⟩ with e2
  set w3 := w2.set n.fee ⟨tp, .token ⟨n.poolMint, feeOwner, 0, none, false, 0, none⟩⟩ with e3
  set w4 := w3.set n.destination ⟨tp, .token ⟨n.poolMint, u, 0, none, false, 0, none⟩⟩ with e4
  set w5 := w4.set n.tokenA ⟨tp, .token ⟨mA, n.authority, 0, none, false, 0, none⟩⟩ with e5
  set w6 := w5.set n.tokenB ⟨tp, .token ⟨mB, n.authority, 0, none, false, 0, none⟩⟩ with e6
  have off1 : ∀ x, x ≠ n.swap → w1 x = w x := fun x h => set_ne _ _ h
  have off2 : ∀ x, x ≠ n.swap → x ≠ n.poolMint → w2 x = w x := fun x h1 h2 =>
    (set_ne _ _ h2).trans (off1 x h1)
  have off3 : ∀ x, x ≠ n.swap → x ≠ n.poolMint → x ≠ n.fee → w3 x = w x := fun x h1 h2 h3 =>
    (set_ne _ _ h3).trans (off2 x h1 h2)
  have off4 : ∀ x, x ≠ n.swap → x ≠ n.poolMint → x ≠ n.fee → x ≠ n.destination → w4 x = w x :=
    fun x h1 h2 h3 h4 => (set_ne _ _ h4).trans (off3 x h1 h2 h3)
  have off5 : ∀ x, x ≠ n.swap → x ≠ n.poolMint → x ≠ n.fee → x ≠ n.destination → x ≠ n.tokenA →
      w5 x = w x := fun x h1 h2 h3 h4 h5 => (set_ne _ _ h5).trans (off4 x h1 h2 h3 h4)
  have off6 : ∀ x, x ≠ n.swap → x ≠ n.poolMint → x ≠ n.fee → x ≠ n.destination → x ≠ n.tokenA →
      x ≠ n.tokenB → w6 x = w x := fun x h1 h2 h3 h4 h5 h6 =>
    (set_ne _ _ h6).trans (off5 x h1 h2 h3 h4 h5)
  have off : ∀ {x}, (w x).owner = tp → w6 x = w x := fun h =>
    off6 _ (used h o1) (used h o2) (used h o3) (used h o4) (used h o5) (used h o6)
  have m2 : w2 n.poolMint = ⟨tp, .mint ⟨some n.authority, 0, none⟩⟩ := set_at _ _ _
  have m3 : w3 n.poolMint = ⟨tp, .mint ⟨some n.authority, 0, none⟩⟩ := (set_ne _ _ n23).trans m2
  have a1 : w6 n.swap = ⟨env.programId, .raw (List.replicate 324 0)⟩ :=
    (set_ne _ _ n16).trans ((set_ne _ _ n15).trans ((set_ne _ _ n14).trans ((set_ne _ _ n13).trans
      ((set_ne _ _ n12).trans (set_at _ _ _)))))
  have a2 : w6 n.poolMint = ⟨tp, .mint ⟨some n.authority, 0, none⟩⟩ :=
    (set_ne _ _ n26).trans ((set_ne _ _ n25).trans ((set_ne _ _ n24).trans m3))
  have a3 : w6 n.fee = ⟨tp, .token ⟨n.poolMint, feeOwner, 0, none, false, 0, none⟩⟩ :=
    (set_ne _ _ n36).trans ((set_ne _ _ n35).trans ((set_ne _ _ n34).trans (set_at _ _ _)))
  have a4 : w6 n.destination = ⟨tp, .token ⟨n.poolMint, u, 0, none, false, 0, none⟩⟩ :=
    (set_ne _ _ n46).trans ((set_ne _ _ n45).trans (set_at _ _ _))
  have a5 : w6 n.tokenA = ⟨tp, .token ⟨mA, n.authority, 0, none, false, 0, none⟩⟩ :=
    (set_ne _ _ n56).trans (set_at _ _ _)
  have a6 : w6 n.tokenB = ⟨tp, .token ⟨mB, n.authority, 0, none, false, 0, none⟩⟩ := set_at _ _ _
  have d1 : Deeds env sys K S w w1 :=
    .single (.create n.swap env.programId 324 (by simp [hS]) o1 rfl)
  have d2 : Deeds env sys K S w1 w2 := new_mint (by simp [hS])
    (by rw [off1 _ (Ne.symm n12)]; exact o2)
  have d3 : Deeds env sys K S w2 w3 := new_account (mt := ⟨some n.authority, 0, none⟩) (by simp [hS])
    (by rw [off2 _ (Ne.symm n13) (Ne.symm n23)]; exact o3) n23 (by rw [m2]) (by rw [m2])
  have d4 : Deeds env sys K S w3 w4 := new_account (mt := ⟨some n.authority, 0, none⟩) (by simp [hS])
    (by rw [off3 _ (Ne.symm n14) (Ne.symm n24) (Ne.symm n34)]; exact o4) n24 (by rw [m3]) (by rw [m3])
  have wA : w4 mA = w mA := off4 _ (used hmA o1) (used hmA o2) (used hmA o3) (used hmA o4)
  have wB : w5 mB = w mB := off5 _ (used hmB o1) (used hmB o2) (used hmB o3) (used hmB o4) (used hmB o5)
  have d5 : Deeds env sys K S w4 w5 := new_account (mt := mtA) (by simp [hS])
    (by rw [off4 _ (Ne.symm n15) (Ne.symm n25) (Ne.symm n35) (Ne.symm n45)]; exact o5)
    (used hmA o5) (by rw [wA]; exact hmA) (by rw [wA]; exact mintAt_some.1 hmtA)
  have d6 : Deeds env sys K S w5 w6 := new_account (mt := mtB) (by simp [hS])
    (by rw [off5 _ (Ne.symm n16) (Ne.symm n26) (Ne.symm n36) (Ne.symm n46) (Ne.symm n56)]; exact o6)
    (used hmB o6) (by rw [wB]; exact hmB) (by rw [wB]; exact mintAt_some.1 hmtB)
  -- the payments
  have sA := hA.1
  have sB := hB.1
  have hss : srcA ≠ srcB := by
    rintro rfl
    obtain ⟨_, t, h1, h2, _⟩ := hA
    obtain ⟨_, t', h3, h4, _⟩ := hB
    rw [h1] at h3
    cases h3
    exact hne (h2.symm.trans h4)
  have pA : CanPay env w6 srcA mA u a.toNat := by
    unfold CanPay tokenAt; rw [off sA]; exact hA
  have pB : CanPay env w6 srcB mB u b.toNat := by
    unfold CanPay tokenAt; rw [off sB]; exact hB
  have hwu : w6 u = w u := off6 _ u1 u2 u3 u4 u5 u6
  obtain ⟨w7, d7, c7, b7, p7, k7⟩ := pay_empty (sys := sys) (K := K) (S := S) pA
    ⟨by rw [hwu]; exact hu, by simp [hS]⟩ (used sA o5) a5
  have q : ∀ {x}, (w x).owner = sys → x ≠ n.tokenA → w7 x = w6 x := fun h h' =>
    k7 _ (Ne.symm (used sA h)) h'
  have pB7 : CanPay env w7 srcB mB u b.toNat := by
    unfold CanPay tokenAt; rw [k7 _ (Ne.symm hss) (used sB o5)]; exact pB
  have hwu7 : (w7 u).owner ≠ tp := by
    by_cases e : u = srcA
    · rw [e] at hu; exact absurd sA hu
    · rw [k7 _ e u5, hwu]; exact hu
  obtain ⟨w8, d8, c8, b8, p8, k8⟩ := pay_empty (sys := sys) (K := K) (S := S) pB7
    ⟨hwu7, by simp [hS]⟩ (used sB o6) (by rw [q o6 (Ne.symm n56)]; exact a6)
  have z : ∀ {x}, (w x).owner = sys → x ≠ n.tokenA → x ≠ n.tokenB → w8 x = w6 x := fun h h1 h2 =>
    (k8 _ (Ne.symm (used sB h)) h2).trans (q h h1)
  have zA : w8 n.tokenA = w7 n.tokenA := k8 _ (Ne.symm (used sB o5)) n56
  obtain ⟨tA, ht1, ht2, ht3⟩ := b7
  obtain ⟨tB, hb1, hb2, hb3⟩ := b8
  have ht1' : tokenAt w8 n.tokenA = some tA := by unfold tokenAt at ht1 ⊢; rw [zA]; exact ht1
  have g1 := (z o1 n15 n16).trans a1
  have g2 := (z o2 n25 n26).trans a2
  have g3 := (z o3 n35 n36).trans a3
  have g4 := (z o4 n45 n46).trans a4
  have hua : u ≠ n.authority := by
    intro e
    apply hup
    rw [e, hpda]
    exact ⟨n.swap, _, hK, he.find n.swap hK⟩
  -- the pool
  have hrun := C54_initialize env K he S i n f c hi hK (by simp [hS]) w8 (List.replicate 324 0) tA tB
    ⟨n.poolMint, feeOwner, 0, none, false, 0, none⟩ ⟨n.poolMint, u, 0, none, false, 0, none⟩
    ⟨some n.authority, 0, none⟩ hpda htp (by rw [g1]) (by rw [g1]) List.length_replicate
    (by
      rintro s ⟨_, l, h1, h2⟩
      rw [g1] at h1
      exact zeros_empty s (by rw [Data.raw.inj h1]; exact h2))
    (by unfold SoleOwner at c7 ⊢; rw [zA, ht2]; exact c7) ht1' (by rw [hb2]; exact c8) hb1
    (by rw [ht2, hb2]; exact hne) (by rw [ht3, hb3]; exact hc)
    ⟨by rw [g2], _, by rw [g2], rfl, rfl⟩ (mintAt_some.2 (by rw [g2])) rfl (by rw [g3])
    (tokenAt_some.2 (by rw [g3])) rfl hfo (tokenAt_some.2 (by rw [g4])) hua
    ⟨by rw [g4], ⟨n.poolMint, u, 0, none, false, 0, none⟩, tokenAt_some.2 (by rw [g4]), rfl, rfl, room0⟩
    hal hf
  obtain ⟨w9, h9⟩ := hrun
  have hpool : i.pool = n.swap := by cases hi <;> rfl
  have d9 : Deed env sys K S w8 w9 := .instr i (by rw [hpool]; exact hK) h9
  obtain ⟨xA, xB, xF, xD, xm, y1, y2, _, _, _, _, _, _, _, _, _, _, _, _, _, _, _, _, _, _, _, _, _, _, _,
    hP, hbal, hsup, hsame⟩ := C27_initialize env S i n f c w8 w9 hi h9
  rw [y1] at ht1'
  rw [y2] at hb1
  cases ht1'
  cases hb1
  rw [ht2, hb2] at hP
  have off9 : ∀ {x}, x ≠ n.destination → bal w9 x = bal w8 x := by
    intro x h
    rw [hbal x]
    unfold Spec.when
    rw [if_neg h]; omega
  have hdest : ∃ t, tokenAt w9 n.destination = some t ∧ t.mint = n.poolMint ∧ t.owner = u := by
    obtain ⟨_, hp⟩ := exec_init hi h9
    obtain ⟨_, _, _, _, _, bytes, _, w', r⟩ := processInitialize_ok hp
    obtain ⟨_, _, _, _, _, hm⟩ := tokenMintTo_ok r.mint
    have hfr := (hm.frame n.destination).2
    rw [g4] at hfr
    have hw : w9 n.destination = w' n.destination := by
      rw [r.write]
      exact set_ne _ _ (Ne.symm n14)
    unfold tokenAt
    rw [hw]
    cases hd : (w' n.destination).data with
    | raw b => rw [hd] at hfr; exact hfr.elim
    | mint b => rw [hd] at hfr; exact hfr.elim
    | token t => rw [hd] at hfr; exact ⟨t, rfl, hfr.1, hfr.2.1⟩
  obtain ⟨tD, hD1, hD2, hD3⟩ := hdest
  refine ⟨w9, d1.trans (d2.trans (d3.trans (d4.trans (d5.trans (d6.trans
    (((Relation.ReflTransGen.single d7).tail d8).tail d9)))))), hP, ?_, ?_, ?_, ⟨tD, hD1, hD2, hD3, ?_⟩,
    ⟨⟨n.poolMint, feeOwner, 0, none, false, 0, none⟩, ?_, rfl, rfl, rfl⟩, ?_, ?_, ?_⟩
  · rw [off9 (Ne.symm n45), bal_some y1, ht3]
  · rw [off9 (Ne.symm n46), bal_some y2, hb3]
  · rw [hsup]
    unfold Spec.when supply
    rw [if_pos rfl, mintAt_some.2 (show (w8 n.poolMint).data = _ by rw [g2])]
    exact Int.zero_add _
  · have h := hbal n.destination
    unfold bal at h
    rw [hD1, tokenAt_some.2 (show (w8 n.destination).data = _ by rw [g4])] at h
    unfold Spec.when at h
    rw [if_pos rfl] at h
    simp only [] at h
    have h0 : ((0 : UInt64).toNat : Int) = 0 := rfl
    rw [h0] at h
    refine UInt64.toNat_inj.1 ?_
    have h1 : (1000000000 : UInt64).toNat = 1000000000 := rfl
    rw [h1]
    omega
  · refine tokenAt_some.2 ?_
    rw [hsame _ (Ne.symm n13) n34 (Ne.symm n23), g3]
  · rw [off9 (used sA o4)]
    have h : bal w8 srcA = bal w7 srcA := by
      unfold bal tokenAt; rw [k8 _ hss (used sA o6)]
    rw [h, p7]
    unfold bal tokenAt
    rw [off sA]
  · rw [off9 (used sB o4), p8]
    have h : bal w7 srcB = bal w srcB := by
      unfold bal tokenAt; rw [k7 _ (Ne.symm hss) (used sB o5), off sB]
    rw [h]
  · intro k hk
    simp only [List.mem_cons, List.not_mem_nil, or_false, not_or] at hk
    obtain ⟨h1, h2, h3, h4, h5, h6, h7, h8⟩ := hk
    rw [hsame k h3 h6 h4, k8 k h2 h8, k7 k h1 h7, off6 k h3 h4 h5 h6 h7 h8]

/-- C85.  Those steps are among the ones the theorems about executions speak about: none of the
signatures is one of a derived address, and the ledger they lead to is again a reachable one. -/
theorem C85_execution (env : Env) (sys : Pubkey) (K : Pubkey → Prop) (he : EnvOk env K)
    (hst : sys ≠ env.tokenProgramId) (hsp : sys ≠ env.programId) (w w' : World) (u : Pubkey)
    (l : List Pubkey) (hup : ¬ IsPda env K u) (hn : UnusedAddrs env sys K w l)
    (h : Deeds env sys K (u :: l) w w') :
    Moves env sys K w w' ∧
    (Reachable env K w → Clean env sys K w → Reachable env K w' ∧ Clean env sys K w') := by
  have hm := deeds_moves
    (fun x hx => (List.mem_cons.1 hx).elim (fun e => e ▸ hup) (hn.keyed x)) h
  refine ⟨hm, fun hr hc => ?_⟩
  clear h hn
  induction hm with
  | refl => exact ⟨hr, hc⟩
  | tail _ hd ih =>
    obtain ⟨⟨w0, hw0, hs⟩, hcb⟩ := ih
    obtain ⟨h1, h2⟩ := hd.step he hst hsp hcb
    exact ⟨⟨w0, hw0, hs.tail h1⟩, h2⟩

/-! ### The hypotheses are met -/

/-- User 50 has 20000 tokens of each of two mints; nothing else is there. -/
def bare : World := Sample.ledger [
  (Sample.key 20, Sample.mnt (Sample.key 61) 100000),
  (Sample.key 21, Sample.mnt (Sample.key 61) 100000),
  (Sample.key 30, Sample.tok (Sample.key 20) (Sample.key 50) 20000),
  (Sample.key 31, Sample.tok (Sample.key 21) (Sample.key 50) 20000)]

theorem bare_unused : UnusedAddrs Sample.env (Sample.key 0) samplePools bare
    [Sample.key 1, Sample.key 5, Sample.key 6, Sample.key 7, Sample.key 3, Sample.key 4] := by
  refine ⟨by decide +kernel, by decide +kernel, ?_⟩
  rintro x hx ⟨k, b, hk, h⟩
  unfold Sample.env at h
  simp only [] at h
  split at h
  · have h := Option.some.inj h
    simp only [List.mem_cons, List.not_mem_nil, or_false] at hx
    rcases hk with rfl | rfl <;> rcases hx with rfl | rfl | rfl | rfl | rfl | rfl <;>
      exact absurd h (by decide)
  · cases h

/-- A linear pool with 100 token B is set up from there. -/
example : ∃ w', Deeds Sample.env (Sample.key 0) samplePools
      [Sample.key 50, Sample.key 1, Sample.key 5, Sample.key 6, Sample.key 7, Sample.key 3,
        Sample.key 4] bare w' ∧
    PoolAt Sample.env w' (Sample.key 1) pool1 ∧ bal w' (Sample.key 4) = 100 := by
  obtain ⟨w', h1, h2, _, h3, _⟩ := C85_setup Sample.env (Sample.key 0) samplePools sample_ok (by decide)
    bare Sample.initLinear Sample.init1 ⟨0, 1, 0, 1, 0, 1, 0, 1⟩ (.linear Sample.lin) (.linear _ _)
    (Or.inl rfl) rfl rfl bare_unused (Sample.key 50) (Sample.key 20) (Sample.key 21) (Sample.key 30)
    (Sample.key 31) (Sample.key 60) 0 100 ⟨some (Sample.key 61), 100000, none⟩
    ⟨some (Sample.key 61), 100000, none⟩ (by decide +kernel) user (by decide +kernel)
    (by decide +kernel) (by decide +kernel) (by decide +kernel) (by decide +kernel) (by decide)
    ⟨by decide +kernel, ⟨Sample.key 20, Sample.key 50, 20000, none, false, 0, none⟩,
      by decide +kernel, rfl, rfl, by decide, rfl, by decide⟩
    ⟨by decide +kernel, ⟨Sample.key 21, Sample.key 50, 20000, none, false, 0, none⟩,
      by decide +kernel, rfl, rfl, by decide, rfl, by decide⟩
    ⟨by decide, by decide, by decide, by decide +kernel, rfl, by decide⟩
    (by intro k; cases k <;> decide) (fun _ h => by cases h) (by decide)
  exact ⟨w', h1, h2, h3⟩

end Props
end Verif
