import Verif.Spec.Wire
import Verif.Lemmas.State
import Verif.Props.Processor

/-
Bytes and account lists of instructions.
-/

namespace Verif
namespace Wire
open State Spec Props Processor

theorem drop_words (rest : List UInt8) : ∀ (ws : List UInt64) (i : Nat), i ≤ ws.length →
    (ws.flatMap leBytes ++ rest).drop (8 * i) = (ws.drop i).flatMap leBytes ++ rest
  | ws, 0, _ => by simp
  | [], i + 1, h => by simp at h
  | w :: ws, i + 1, h => by
    have h1 : 8 * (i + 1) = (leBytes w).length + 8 * i := by rw [leBytes_length]; ring
    rw [List.flatMap_cons, List.append_assoc, h1, ← List.drop_drop, List.drop_left, List.drop_succ_cons]
    exact drop_words rest ws i (by simpa using h)

theorem u64At_words (rest : List UInt8) (ws : List UInt64) (i : Nat) (h : i < ws.length) :
    u64At (ws.flatMap leBytes ++ rest) (8 * i) = ws[i] := by
  apply u64At_of (b := (ws.drop (i + 1)).flatMap leBytes ++ rest)
  rw [drop_words rest ws i (by omega), List.drop_eq_getElem_cons h, List.flatMap_cons,
    List.append_assoc]

theorem words_length : ∀ ws : List UInt64, (ws.flatMap leBytes).length = 8 * ws.length
  | [] => rfl
  | w :: ws => by
    rw [List.flatMap_cons, List.length_append, leBytes_length, words_length ws, List.length_cons]
    ring

/-- The front of a list as words. -/
theorem words_of (n : Nat) (l : List UInt8) (h : 8 * n ≤ l.length) :
    l = ((List.range n).map fun i => u64At l (8 * i)).flatMap leBytes ++ l.drop (8 * n) := by
  induction n with
  | zero => simp
  | succ n ih =>
    have h1 := ih (by omega)
    rw [List.range_succ, List.map_append, List.flatMap_append, List.append_assoc]
    rw [List.map_singleton, List.flatMap_singleton, leBytes_u64At (by omega)]
    have h2 : (l.drop (8 * n)).take 8 ++ l.drop (8 * (n + 1)) = l.drop (8 * n) := by
      rw [show 8 * (n + 1) = 8 * n + 8 from by ring, ← List.drop_drop, List.take_append_drop]
    rw [h2]
    exact h1

theorem fields_ok {n : Nat} {l : List UInt8} {f : (Nat → UInt64) → Args} {a : Args} :
    fields n l f = .ok a ↔ 8 * n ≤ l.length ∧ f (fun i => u64At l (8 * i)) = a := by
  unfold fields
  split
  · rename_i h
    constructor
    · intro h; cases h
    · rintro ⟨h1, _⟩; omega
  · rename_i h
    constructor
    · intro h1; exact ⟨by omega, Except.ok.inj h1⟩
    · rintro ⟨_, h1⟩; rw [h1]

/-- Fields decode to `a` exactly when the data are the words of `a` followed by anything. -/
theorem fields_iff {n : Nat} {l : List UInt8} {f : (Nat → UInt64) → Args} {a : Args}
    (hw : ∀ x, words (f x) = (List.range n).map x) (hn : (words a).length = n)
    (hf : f (fun i => (words a).getD i 0) = a)
    (hloc : ∀ x y : Nat → UInt64, (∀ i, i < n → x i = y i) → f x = f y) :
    fields n l f = .ok a ↔ ∃ rest, l = (words a).flatMap leBytes ++ rest := by
  rw [fields_ok]
  constructor
  · rintro ⟨h1, rfl⟩
    refine ⟨l.drop (8 * n), ?_⟩
    rw [hw]
    exact words_of n l h1
  · rintro ⟨rest, rfl⟩
    refine ⟨by rw [List.length_append, words_length, hn]; omega, ?_⟩
    rw [← hf]
    apply hloc
    intro i hi
    have hi' : i < (words a).length := by omega
    rw [hf, u64At_words rest (words a) i hi']
    simp [hi']

theorem fields_words {n : Nat} {l : List UInt8} {f : (Nat → UInt64) → Args} {a : Args}
    (hw : ∀ x, words (f x) = (List.range n).map x) (h : fields n l f = .ok a) :
    ∃ rest, l = (words a).flatMap leBytes ++ rest := by
  obtain ⟨h1, rfl⟩ := fields_ok.1 h
  exact ⟨l.drop (8 * n), by rw [hw]; exact words_of n l h1⟩

theorem encode_of {data : List UInt8} {a : Args} (ht : data.take 8 = tag a)
    (h : ∃ rest, data.drop 8 = (words a).flatMap leBytes ++ rest) :
    ∃ rest, data = encode a ++ rest := by
  obtain ⟨rest, h⟩ := h
  refine ⟨rest, ?_⟩
  unfold encode
  rw [List.append_assoc, ← h, ← ht, List.take_append_drop]

theorem tag_length (a : Args) : (tag a).length = 8 := by cases a <;> rfl

theorem encode_take (a : Args) (rest : List UInt8) : (encode a ++ rest).take 8 = tag a := by
  unfold encode
  rw [List.append_assoc, ← tag_length a, List.take_left]

theorem encode_drop (a : Args) (rest : List UInt8) :
    (encode a ++ rest).drop 8 = (words a).flatMap leBytes ++ rest := by
  unfold encode
  rw [List.append_assoc, ← tag_length a, List.drop_left]

/-- Data decode to `a` exactly when they start with its encoding. -/
theorem parse_iff (data : List UInt8) (a : Args) :
    parse data = .ok a ↔ ∃ rest, data = encode a ++ rest := by
  constructor
  · intro h
    unfold parse at h
    split at h
    · cases h
    simp only [] at h
    split at h
    · rename_i ht
      have hf := fields_words (fun x => rfl) h
      obtain ⟨_, rfl⟩ := fields_ok.1 h
      exact encode_of ht hf
    split at h
    · rename_i ht
      have hf := fields_words (fun x => rfl) h
      obtain ⟨_, rfl⟩ := fields_ok.1 h
      exact encode_of ht hf
    split at h
    · rename_i ht
      have hf := fields_words (fun x => rfl) h
      obtain ⟨_, rfl⟩ := fields_ok.1 h
      exact encode_of ht hf
    split at h
    · rename_i ht
      have hf := fields_words (fun x => rfl) h
      obtain ⟨_, rfl⟩ := fields_ok.1 h
      exact encode_of ht hf
    split at h
    · rename_i ht
      have hf := fields_words (fun x => rfl) h
      obtain ⟨_, rfl⟩ := fields_ok.1 h
      exact encode_of ht hf
    split at h
    · rename_i ht
      have hf := fields_words (fun x => rfl) h
      obtain ⟨_, rfl⟩ := fields_ok.1 h
      exact encode_of ht hf
    split at h
    · rename_i ht
      have hf := fields_words (fun x => rfl) h
      obtain ⟨_, rfl⟩ := fields_ok.1 h
      exact encode_of ht hf
    cases h
  · rintro ⟨rest, rfl⟩
    unfold parse
    rw [if_neg (by
      have : (encode a).length = 8 + 8 * (words a).length := by
        unfold encode
        rw [List.length_append, tag_length, words_length]
      rw [List.length_append]; omega)]
    simp only [encode_take, encode_drop]
    cases a with
    | initConstantPrice f p =>
      have ht : tag (.initConstantPrice f p) = tagInitConstantPrice := rfl
      rw [ht, if_pos rfl]
      refine (fields_iff (fun x => rfl) ?_ ?_ ?_).2 ⟨rest, rfl⟩
      · rfl
      · rfl
      · intro x y e
        simp only [e 0 (by decide), e 1 (by decide), e 2 (by decide), e 3 (by decide), e 4 (by decide), e 5 (by decide), e 6 (by decide), e 7 (by decide), e 8 (by decide)]
    | initLinearPrice c =>
      have ht : tag (.initLinearPrice c) = tagInitLinearPrice := rfl
      rw [ht, if_neg (by decide), if_pos rfl]
      refine (fields_iff (fun x => rfl) ?_ ?_ ?_).2 ⟨rest, rfl⟩
      · rfl
      · rfl
      · intro x y e
        simp only [e 0 (by decide), e 1 (by decide), e 2 (by decide), e 3 (by decide)]
    | swap x y =>
      have ht : tag (.swap x y) = tagSwap := rfl
      rw [ht, if_neg (by decide), if_neg (by decide), if_pos rfl]
      refine (fields_iff (fun x => rfl) ?_ ?_ ?_).2 ⟨rest, rfl⟩
      · rfl
      · rfl
      · intro x y e
        simp only [e 0 (by decide), e 1 (by decide)]
    | depositAll x y z =>
      have ht : tag (.depositAll x y z) = tagDepositAll := rfl
      rw [ht, if_neg (by decide), if_neg (by decide), if_neg (by decide), if_pos rfl]
      refine (fields_iff (fun x => rfl) ?_ ?_ ?_).2 ⟨rest, rfl⟩
      · rfl
      · rfl
      · intro x y e
        simp only [e 0 (by decide), e 1 (by decide), e 2 (by decide)]
    | withdrawAll x y z =>
      have ht : tag (.withdrawAll x y z) = tagWithdrawAll := rfl
      rw [ht, if_neg (by decide), if_neg (by decide), if_neg (by decide), if_neg (by decide), if_pos rfl]
      refine (fields_iff (fun x => rfl) ?_ ?_ ?_).2 ⟨rest, rfl⟩
      · rfl
      · rfl
      · intro x y e
        simp only [e 0 (by decide), e 1 (by decide), e 2 (by decide)]
    | depositSingle x y =>
      have ht : tag (.depositSingle x y) = tagDepositSingle := rfl
      rw [ht, if_neg (by decide), if_neg (by decide), if_neg (by decide), if_neg (by decide), if_neg (by decide), if_pos rfl]
      refine (fields_iff (fun x => rfl) ?_ ?_ ?_).2 ⟨rest, rfl⟩
      · rfl
      · rfl
      · intro x y e
        simp only [e 0 (by decide), e 1 (by decide)]
    | withdrawSingle x y =>
      have ht : tag (.withdrawSingle x y) = tagWithdrawSingle := rfl
      rw [ht, if_neg (by decide), if_neg (by decide), if_neg (by decide), if_neg (by decide), if_neg (by decide), if_neg (by decide), if_pos rfl]
      refine (fields_iff (fun x => rfl) ?_ ?_ ?_).2 ⟨rest, rfl⟩
      · rfl
      · rfl
      · intro x y e
        simp only [e 0 (by decide), e 1 (by decide)]

theorem tag_not_idl (a : Args) : tag a ≠ tagIdl := by
  cases a <;> simp only [tag] <;> decide

/-! ### Accounts -/

theorem sign_mem {ms : List Meta} {m : Meta} (h : m ∈ ms) (hs : m.signer = true) :
    m.key ∈ signersOf ms :=
  List.mem_map.2 ⟨m, List.mem_filter.2 ⟨h, hs⟩, rfl⟩

theorem checkAccounts_ok {ms : List Meta} {n s : Nat} {mu : List Nat} {u : Unit} :
    checkAccounts ms n s mu = .ok u ↔
      n ≤ ms.length ∧ ms[s]!.signer = true ∧ ∀ i ∈ mu, ms[i]!.writable = true := by
  unfold checkAccounts
  rw [req_bind, req_bind, req_ok]

theorem check_bind {ms : List Meta} {n s : Nat} {mu : List Nat} {i j : Instr} :
    (do checkAccounts ms n s mu; (Except.ok i : Except Err Instr)) = .ok j ↔
      (n ≤ ms.length ∧ ms[s]!.signer = true ∧ ∀ i ∈ mu, ms[i]!.writable = true) ∧ i = j := by
  cases h : checkAccounts ms n s mu with
  | ok u =>
    have := checkAccounts_ok.1 h
    constructor
    · intro e; exact ⟨this, Except.ok.inj e⟩
    · rintro ⟨_, rfl⟩; rfl
  | error e =>
    constructor
    · intro e; cases e
    · rintro ⟨h1, _⟩
      rw [(checkAccounts_ok (u := ())).2 h1] at h
      cases h

theorem fits_length : ∀ {ms : List Meta} {rs : List Role}, Fits ms rs → rs.length ≤ ms.length
  | _, [], _ => Nat.zero_le _
  | [], _ :: _, h => h.elim
  | _ :: _, _ :: _, h => Nat.succ_le_succ (fits_length h.2)

theorem split8 {ms : List Meta} (h : 8 ≤ ms.length) : ∃ a b c d e f g i r,
    ms = a :: b :: c :: d :: e :: f :: g :: i :: r := by
  match ms, h with
  | a :: b :: c :: d :: e :: f :: g :: i :: r, _ => exact ⟨a, b, c, d, e, f, g, i, r, rfl⟩

theorem split9 {ms : List Meta} (h : 9 ≤ ms.length) : ∃ a b c d e f g i j r,
    ms = a :: b :: c :: d :: e :: f :: g :: i :: j :: r := by
  match ms, h with
  | a :: b :: c :: d :: e :: f :: g :: i :: j :: r, _ => exact ⟨a, b, c, d, e, f, g, i, j, r, rfl⟩

theorem split10 {ms : List Meta} (h : 10 ≤ ms.length) : ∃ a b c d e f g i j k r,
    ms = a :: b :: c :: d :: e :: f :: g :: i :: j :: k :: r := by
  match ms, h with
  | a :: b :: c :: d :: e :: f :: g :: i :: j :: k :: r, _ =>
    exact ⟨a, b, c, d, e, f, g, i, j, k, r, rfl⟩

theorem split11 {ms : List Meta} (h : 11 ≤ ms.length) : ∃ a b c d e f g i j k l r,
    ms = a :: b :: c :: d :: e :: f :: g :: i :: j :: k :: l :: r := by
  match ms, h with
  | a :: b :: c :: d :: e :: f :: g :: i :: j :: k :: l :: r, _ =>
    exact ⟨a, b, c, d, e, f, g, i, j, k, l, r, rfl⟩

/-- Binding accounts succeeds exactly with accounts that fit the documented roles. -/
theorem bind_iff (ms : List Meta) (args : Args) (i : Instr) :
    bindAccounts ms args = .ok i ↔ i.args = args ∧ Fits ms (roles i) := by
  constructor
  · intro h
    cases args <;> simp only [bindAccounts] at h <;> rw [check_bind] at h <;>
      obtain ⟨⟨hl, hs, hm⟩, rfl⟩ := h <;> refine ⟨rfl, ?_⟩
    · obtain ⟨a, b, c, d, e, f, g, i, r, rfl⟩ := split8 hl
      simpa [Fits, roles, Role.Ok, and_assoc, and_comm, and_left_comm] using And.intro hs hm
    · obtain ⟨a, b, c, d, e, f, g, i, r, rfl⟩ := split8 hl
      simpa [Fits, roles, Role.Ok, and_assoc, and_comm, and_left_comm] using And.intro hs hm
    · obtain ⟨a, b, c, d, e, f, g, i, j, k, r, rfl⟩ := split10 hl
      simpa [Fits, roles, Role.Ok] using And.intro hs hm
    · obtain ⟨a, b, c, d, e, f, g, i, j, k, r, rfl⟩ := split10 hl
      simpa [Fits, roles, Role.Ok] using And.intro hs hm
    · obtain ⟨a, b, c, d, e, f, g, i, j, k, l, r, rfl⟩ := split11 hl
      simpa [Fits, roles, Role.Ok] using And.intro hs hm
    · obtain ⟨a, b, c, d, e, f, g, i, j, r, rfl⟩ := split9 hl
      simpa [Fits, roles, Role.Ok] using And.intro hs hm
    · obtain ⟨a, b, c, d, e, f, g, i, j, k, r, rfl⟩ := split10 hl
      simpa [Fits, roles, Role.Ok] using And.intro hs hm
  · rintro ⟨rfl, hf⟩
    have hl := fits_length hf
    cases i <;> simp only [Instr.args, bindAccounts] <;> rw [check_bind]
    · obtain ⟨a, b, c, d, e, f, g, i, r, rfl⟩ := split8 hl
      simp only [Fits, roles, Role.Ok] at hf
      obtain ⟨⟨h0, h0', h0''⟩, h1, h2, h3, ⟨h4, h4'⟩, h5, ⟨h6, h6'⟩, h7, _⟩ := hf
      simp_all
    · obtain ⟨a, b, c, d, e, f, g, i, r, rfl⟩ := split8 hl
      simp only [Fits, roles, Role.Ok] at hf
      obtain ⟨⟨h0, h0', h0''⟩, h1, h2, h3, ⟨h4, h4'⟩, h5, ⟨h6, h6'⟩, h7, _⟩ := hf
      simp_all
    · obtain ⟨a, b, c, d, e, f, g, i, j, k, r, rfl⟩ := split10 hl
      simp only [Fits, roles, Role.Ok] at hf
      simp_all
    · obtain ⟨a, b, c, d, e, f, g, i, j, k, r, rfl⟩ := split10 hl
      simp only [Fits, roles, Role.Ok] at hf
      simp_all
    · obtain ⟨a, b, c, d, e, f, g, i, j, k, l, r, rfl⟩ := split11 hl
      simp only [Fits, roles, Role.Ok] at hf
      simp_all
    · obtain ⟨a, b, c, d, e, f, g, i, j, r, rfl⟩ := split9 hl
      simp only [Fits, roles, Role.Ok] at hf
      simp_all
    · obtain ⟨a, b, c, d, e, f, g, i, j, k, r, rfl⟩ := split10 hl
      simp only [Fits, roles, Role.Ok] at hf
      simp_all

/-- Keys an instruction may write. -/
def writable : List Role → List Pubkey
  | [] => []
  | .writes k :: rs => k :: writable rs
  | .signsAndWrites k :: rs => k :: writable rs
  | _ :: rs => writable rs

theorem fits_writable : ∀ {ms : List Meta} {rs : List Role}, Fits ms rs → ∀ k ∈ writable rs,
    ∃ m ∈ ms, m.key = k ∧ m.writable = true
  | _, [], _, k, h => by simp [writable] at h
  | [], _ :: _, h, _, _ => h.elim
  | m :: ms, r :: rs, h, k, hk => by
    have next : k ∈ writable rs → ∃ m' ∈ m :: ms, m'.key = k ∧ m'.writable = true := fun hk => by
      obtain ⟨m', h1, h2⟩ := fits_writable h.2 k hk
      exact ⟨m', List.mem_cons_of_mem _ h1, h2⟩
    cases r with
    | reads x => exact next hk
    | signs x => exact next hk
    | writes x =>
      rcases List.mem_cons.1 hk with rfl | hk
      · exact ⟨m, List.mem_cons_self, h.1.1, h.1.2⟩
      · exact next hk
    | signsAndWrites x =>
      rcases List.mem_cons.1 hk with rfl | hk
      · exact ⟨m, List.mem_cons_self, h.1.1, h.1.2.2⟩
      · exact next hk

/-- Only accounts documented as writable change. -/
theorem exec_writes {env : Env} {signers : List Pubkey} {i : Instr} {w w' : World}
    (h : exec env signers i w = .ok w') {k : Pubkey} (hk : k ∉ writable (roles i)) : w' k = w k := by
  have init : ∀ {f : Fees} {c : Curve} {a : InitAccounts},
      processInitialize env signers f c a w = .ok w' → k ≠ a.swap → k ≠ a.poolMint →
        k ≠ a.destination → w' k = w k := by
    intro f c a hp h1 h2 h3
    obtain ⟨tA, tB, fa, de, pm, bytes, old, w1, r⟩ := processInitialize_ok hp
    rw [r.write]
    unfold World.setData
    rw [if_neg h1]
    exact r.minted.same k (by simp [h2, h3])
  cases i with
  | initConstantPrice a f p =>
    simp only [roles, writable, List.mem_cons, List.not_mem_nil, or_false, not_or] at hk
    exact init (exec_init (.price a f p) h).2 hk.1 hk.2.1 hk.2.2
  | initLinearPrice a c =>
    simp only [roles, writable, List.mem_cons, List.not_mem_nil, or_false, not_or] at hk
    exact init (exec_init (.linear a c) h).2 hk.1 hk.2.1 hk.2.2
  | swap a x y =>
    obtain ⟨_, hp⟩ := exec_swap h
    obtain ⟨ts, src, dst, pm, r, pt, amtIn, amtOut, w1, w2, run⟩ := processSwap_ok hp
    refine run.effect.same k ?_
    rw [← run.mintIs, ← run.feeIs]
    simp only [roles, writable, List.mem_cons, List.not_mem_nil, or_false, not_or] at hk ⊢
    tauto
  | depositAll a x y z =>
    obtain ⟨_, hp⟩ := exec_depositAll h
    obtain ⟨ts, tA, tB, pm, r, amtA, amtB, amtP, w1, w2, run⟩ := processDepositAll_ok hp
    refine run.effect.same k ?_
    rw [← run.checked.isA, ← run.checked.isB, ← run.checked.isMint]
    simp only [roles, writable, List.mem_cons, List.not_mem_nil, or_false, not_or] at hk ⊢
    tauto
  | withdrawAll a x y z =>
    obtain ⟨_, hp⟩ := exec_withdrawAll h
    obtain ⟨ts, tA, tB, pm, fee, burnt, r, amtA, amtB, w1, w2, w3, run⟩ := processWithdrawAll_ok hp
    refine run.effect.same k ?_
    rw [← run.checked.isA, ← run.checked.isB, ← run.checked.isMint]
    simp only [roles, writable, List.mem_cons, List.not_mem_nil, or_false, not_or] at hk ⊢
    tauto
  | depositSingle a x y =>
    obtain ⟨_, hp⟩ := exec_depositSingle h
    obtain ⟨ts, src, tA, tB, dir, pm, amtP, w1, run⟩ := processDepositSingle_ok hp
    refine run.effect.same k ?_
    rw [← run.checked.isA, ← run.checked.isB, ← run.checked.isMint]
    simp only [roles, writable, List.mem_cons, List.not_mem_nil, or_false, not_or] at hk
    cases dir <;> simp only [sideOf, List.mem_cons, List.not_mem_nil, or_false, not_or] <;> tauto
  | withdrawSingle a x y =>
    obtain ⟨_, hp⟩ := exec_withdrawSingle h
    obtain ⟨ts, dst, tA, tB, dir, pm, fee, burnt, w1, w2, run⟩ := processWithdrawSingle_ok hp
    refine run.effect.same k ?_
    rw [← run.checked.isA, ← run.checked.isB, ← run.checked.isMint]
    simp only [roles, writable, List.mem_cons, List.not_mem_nil, or_false, not_or] at hk
    cases dir <;> simp only [sideOf, List.mem_cons, List.not_mem_nil, or_false, not_or] <;> tauto

theorem entry_ok {env : Env} {idl : List Meta → List UInt8 → World → Except Err World}
    {ms : List Meta} {data : List UInt8} {w w' : World} (hd : data.take 8 ≠ tagIdl) :
    entry env idl ms data w = .ok w' ↔ ∃ args i, parse data = .ok args ∧
      bindAccounts ms args = .ok i ∧ exec env (signersOf ms) i w = .ok w' := by
  unfold entry
  rw [if_neg hd]
  constructor
  · intro h
    rw [Except_bind_ok] at h
    obtain ⟨args, h1, h⟩ := h
    rw [Except_bind_ok] at h
    obtain ⟨i, h2, h3⟩ := h
    exact ⟨args, i, h1, h2, h3⟩
  · rintro ⟨args, i, h1, h2, h3⟩
    rw [h1]
    show (bindAccounts ms args >>= fun i => exec env (signersOf ms) i w) = _
    rw [h2]
    exact h3

end Wire
end Verif
