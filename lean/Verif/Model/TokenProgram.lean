import Verif.Model.Chain

/-
What third parties can do, instruction by instruction: the spl-token 3.3.0 program, the system
program, any other program within the runtime's rules, and Anchor's IDL instructions.  Nothing here
is code of `/repo`; the program itself calls only `Burn`, `MintTo` and `Transfer` (processor.rs
l.66-147), which are in `Model/Ledger.lean`.  Not modelled: decimals (the `...Checked` variants only
add checks to the plain ones) and lamports.  For wrapped SOL, accounts of the native mint, what the
lamports of an account come to is a parameter of `syncNative`; an account of that mint counts as
native, mints and burns, which spl-token refuses for it, are not ruled out, and a change of owner is
not taken to drop its close authority.
-/

namespace Verif
namespace Token

/-- `spl_token::native_mint::ID`, So11111111111111111111111111111111111111112. -/
def nativeMint : Pubkey := ⟨[6, 155, 136, 87, 254, 171, 129, 132, 251, 104, 127, 99, 70, 24, 192, 53,
  218, 196, 57, 220, 26, 235, 59, 85, 152, 160, 240, 0, 0, 0, 0, 1], rfl⟩

/-- `AuthorityType` of spl-token. -/
inductive AuthorityType where
  | MintTokens | FreezeAccount | AccountOwner | CloseAccount
  deriving DecidableEq

/-- Instructions of spl-token 3.3.0. -/
inductive TokenInstr where
  | initializeMint (mint authority : Pubkey) (freeze : Option Pubkey)
  | initializeAccount (account mint owner : Pubkey)
  | initializeMultisig (account : Pubkey) (m : UInt8) (keys : List Pubkey)
  | transfer (src dst authority : Pubkey) (amount : UInt64)
  | approve (src delegate authority : Pubkey) (amount : UInt64)
  | revoke (src authority : Pubkey)
  | setAuthority (account : Pubkey) (kind : AuthorityType) (authority : Pubkey)
      (new : Option Pubkey)
  | mintTo (mint dst authority : Pubkey) (amount : UInt64)
  | burn (src mint authority : Pubkey) (amount : UInt64)
  | closeAccount (account dst authority : Pubkey)
  | freezeAccount (account mint authority : Pubkey)
  | thawAccount (account mint authority : Pubkey)
  | syncNative (account : Pubkey) (lamports : UInt64)
  deriving DecidableEq

/-- Signature part of `validate_owner`: a multisig account of the token program (355 bytes: `m`,
`n`, initialised flag, eleven keys) needs `m` of its `n` keys among the signers, any other
authority must have signed itself. -/
def approves (tp : Pubkey) (w : World) (signers : List Pubkey) (a : Pubkey) : Bool :=
  if (w a).owner = tp then
    match (w a).data with
    | .raw b =>
      if b.length = 355 then
        decide (State.byteAt b 2 = 1) &&
        decide ((State.byteAt b 0).toNat ≤ ((List.range (State.byteAt b 1).toNat).filter fun i =>
          decide (State.keyAt b (3 + 32 * i) ∈ signers)).length)
      else decide (a ∈ signers)
    | _ => decide (a ∈ signers)
  else decide (a ∈ signers)

/-- An account of the token program that holds nothing yet: `len` bytes whose initialised flag, at
`flag`, is zero. -/
def uninitialized (tp : Pubkey) (w : World) (k : Pubkey) (len flag : Nat) : Except Err Unit := do
  require ((w k).owner = tp) .IncorrectProgramId
  match (w k).data with
  | .raw b => do
    require (b.length = len) .InvalidAccountData
    require (State.byteAt b flag = 0) (.token .AlreadyInUse)
  | _ => .error (.token .AlreadyInUse)

/-- `process_initialize_multisig`, packed. -/
def packMultisig (m : UInt8) (keys : List Pubkey) : List UInt8 :=
  [m, UInt8.ofNat keys.length, 1] ++ (keys.map Pubkey.bytes).flatten ++
    List.replicate (352 - 32 * keys.length) 0

/-- `process_set_authority`. -/
def setAuthority (tp : Pubkey) (signed : Pubkey → Bool) (k : Pubkey) (kind : AuthorityType)
    (authority : Pubkey) (new : Option Pubkey) (w : World) : Except Err World := do
  require ((w k).owner = tp) .IncorrectProgramId
  match (w k).data with
  | .token t => do
    require (t.frozen = false) (.token .AccountFrozen)
    match kind with
    | .AccountOwner => do
      validateOwner signed t.owner authority
      let o ← optErr new (.token .InvalidInstruction)
      .ok (w.setData k (.token { t with owner := o, delegate := none, delegated_amount := 0 }))
    | .CloseAccount => do
      validateOwner signed (t.close_authority.getD t.owner) authority
      .ok (w.setData k (.token { t with close_authority := new }))
    | _ => .error (.token .AuthorityTypeNotSupported)
  | .mint m =>
    match kind with
    | .MintTokens => do
      let a ← optErr m.mint_authority (.token .FixedSupply)
      validateOwner signed a authority
      .ok (w.setData k (.mint { m with mint_authority := new }))
    | .FreezeAccount => do
      let a ← optErr m.freeze_authority (.token .MintCannotFreeze)
      validateOwner signed a authority
      .ok (w.setData k (.mint { m with freeze_authority := new }))
    | _ => .error (.token .AuthorityTypeNotSupported)
  | .raw _ => .error .InvalidAccountData

/-- `process_toggle_freeze_account`. -/
def toggleFreeze (tp : Pubkey) (signed : Pubkey → Bool) (k mint authority : Pubkey)
    (freeze : Bool) (w : World) : Except Err World := do
  let t ← getToken tp w k
  require (t.frozen ≠ freeze) (.token .InvalidState)
  require (t.mint = mint) (.token .MintMismatch)
  let m ← getMint tp w mint
  let a ← optErr m.freeze_authority (.token .MintCannotFreeze)
  validateOwner signed a authority
  .ok (w.setData k (.token { t with frozen := freeze }))

/-- One token-program instruction in a transaction signed by `signers`. -/
def TokenInstr.exec (tp : Pubkey) (signers : List Pubkey) (i : TokenInstr) (w : World) :
    Except Err World :=
  match i with
  | .initializeMint k a f => do
    uninitialized tp w k 82 45
    .ok (w.setData k (.mint ⟨some a, 0, f⟩))
  | .initializeAccount k m o => do
    uninitialized tp w k 165 108
    let _ ← getMint tp w m
    .ok (w.setData k (.token ⟨m, o, 0, none, false, 0, none⟩))
  | .initializeMultisig k m keys => do
    uninitialized tp w k 355 2
    require (1 ≤ keys.length ∧ keys.length ≤ 11 ∧ 1 ≤ m.toNat ∧ m.toNat ≤ 11)
      (.token .InvalidNumberOfSigners)
    .ok (w.setData k (.raw (packMultisig m keys)))
  | .transfer src dst a x => Token.transfer tp (approves tp w signers) src dst a x w
  | .approve src d a x => do
    let t ← getToken tp w src
    require (t.frozen = false) (.token .AccountFrozen)
    validateOwner (approves tp w signers) t.owner a
    .ok (w.setData src (.token { t with delegate := some d, delegated_amount := x }))
  | .revoke src a => do
    let t ← getToken tp w src
    require (t.frozen = false) (.token .AccountFrozen)
    validateOwner (approves tp w signers) t.owner a
    .ok (w.setData src (.token { t with delegate := none, delegated_amount := 0 }))
  | .setAuthority k kind a new => Token.setAuthority tp (approves tp w signers) k kind a new w
  | .mintTo m dst a x => Token.mintTo tp (approves tp w signers) m dst a x w
  | .burn src m a x => Token.burn tp (approves tp w signers) src m a x w
  | .closeAccount k dst a => do
    require (k ≠ dst) .InvalidAccountData
    let t ← getToken tp w k
    require (t.mint = nativeMint ∨ t.amount = 0) (.token .NonNativeHasBalance)
    validateOwner (approves tp w signers) (t.close_authority.getD t.owner) a
    .ok (w.setData k (.raw (List.replicate 165 0)))
  | .freezeAccount k m a => toggleFreeze tp (approves tp w signers) k m a true w
  | .thawAccount k m a => toggleFreeze tp (approves tp w signers) k m a false w
  | .syncNative k x => do
    let t ← getToken tp w k
    require (t.mint = nativeMint) (.token .NonNativeNotSupported)
    require (t.amount ≤ x) (.token .InvalidState)
    .ok (w.setData k (.token { t with amount := x }))

end Token

/-- Replace one account. -/
def World.set (w : World) (k : Pubkey) (a : Account) : World := fun k' => if k' = k then a else w k'

/-- Contents of a new account. -/
def Zeros (d : Data) : Prop := ∃ n, d = .raw (List.replicate n 0)

/-- One step taken by somebody else; `sys` is the system program. -/
inductive Outside (env : Env) (sys : Pubkey) (K : Pubkey → Prop) (w w' : World) : Prop
  /-- a token-program instruction; derived addresses of this program do not sign -/
  | token (signers : List Pubkey) (i : Token.TokenInstr) (hs : ∀ x ∈ signers, ¬ IsPda env K x)
      (h : i.exec env.tokenProgramId signers w = .ok w')
  /-- `CreateAccount`, `Allocate`, `Assign`: the address itself signs, the account starts with
  zeros and may be handed to any program -/
  | create (k owner : Pubkey) (n : Nat) (hk : ¬ IsPda env K k) (ho : (w k).owner = sys)
      (h : w' = w.set k ⟨owner, .raw (List.replicate n 0)⟩)
  /-- the system program rewriting an account of its own (nonces) -/
  | system (k : Pubkey) (d : Data) (ho : (w k).owner = sys) (h : w' = w.set k ⟨sys, d⟩)
  /-- another program: writes accounts it owns, and may give one away only zeroed -/
  | program (p : Pubkey) (h1 : p ≠ env.programId) (h2 : p ≠ env.tokenProgramId) (h3 : p ≠ sys)
      (h : ∀ k, w' k = w k ∨ (w k).owner = p ∧ ((w' k).owner = p ∨ Zeros (w' k).data))
  /-- an account without lamports vanishes (token accounts are zeroed by `CloseAccount`; this
  program never takes lamports from its accounts) -/
  | purge (k : Pubkey) (ho : (w k).owner ≠ env.programId) (hz : Zeros (w k).data)
      (h : w' = w.set k ⟨sys, .raw []⟩)
  /-- Anchor's IDL instructions of this program: create or rewrite an IDL account -/
  | idl (k : Pubkey) (t : List UInt8) (hk : ¬ IsPda env K k)
      (ho : (w k).owner = sys ∨ (w k).owner = env.programId ∧ IdlWritable (w k).data)
      (h : w' = w.set k ⟨env.programId, .raw (idlTag ++ t)⟩)

/-- Executions of the program's instructions interleaved with steps of others. -/
inductive Move (env : Env) (sys : Pubkey) (K : Pubkey → Prop) (w w' : World) : Prop
  | instr (signers : List Pubkey) (i : Instr) (hk : K i.pool) (hs : ∀ x ∈ signers, ¬ IsPda env K x)
      (h : exec env signers i w = .ok w')
  | outside (h : Outside env sys K w w')

def Moves (env : Env) (sys : Pubkey) (K : Pubkey → Prop) : World → World → Prop :=
  Relation.ReflTransGen (Move env sys K)

end Verif
