import Verif.Model.State

/-
The account ledger and the token-program operations the program invokes.  Token accounts and
mints are records; their byte encodings belong to crate `spl-token` 3.3.0 (not in `/repo`).
Not modelled: multisig owners, lamports.  Wrapped SOL is in `Model/TokenProgram`.
-/

namespace Verif

/-- `spl_token::state::Account` (without `is_native`, which holds of the accounts in `nativeMint`). -/
structure TokenAccount where
  mint : Pubkey
  owner : Pubkey
  amount : UInt64
  delegate : Option Pubkey
  frozen : Bool
  delegated_amount : UInt64
  close_authority : Option Pubkey
  deriving DecidableEq

/-- `spl_token::state::Mint` (without `decimals`). -/
structure Mint where
  mint_authority : Option Pubkey
  supply : UInt64
  freeze_authority : Option Pubkey
  deriving DecidableEq

/-- Account contents: initialised token account, initialised mint, or any other bytes. -/
inductive Data where
  | token (t : TokenAccount)
  | mint (m : Mint)
  | raw (bytes : List UInt8)
  deriving DecidableEq

/-- An account: the program that owns it and its contents. -/
structure Account where
  owner : Pubkey
  data : Data
  deriving DecidableEq

/-- The ledger. -/
abbrev World := Pubkey → Account

/-- Overwrite one account's contents. -/
def World.setData (w : World) (k : Pubkey) (d : Data) : World :=
  fun k' => if k' = k then { w k with data := d } else w k'

/-- `if !c { return Err(e) }`. -/
def require (c : Prop) [Decidable c] (e : Err) : Except Err Unit :=
  if c then .ok () else .error e

/-- `checked_add` on `u64`. -/
def checkedAdd64 (a b : UInt64) : Option UInt64 :=
  if a.toNat + b.toNat < U64 then some (UInt64.ofNat (a.toNat + b.toNat)) else none

/-- `checked_sub` on `u64`. -/
def checkedSub64 (a b : UInt64) : Option UInt64 :=
  if b.toNat ≤ a.toNat then some (UInt64.ofNat (a.toNat - b.toNat)) else none

/-- `ok_or` for options. -/
def optErr {α : Type} (o : Option α) (e : Err) : Except Err α :=
  match o with
  | some a => .ok a
  | none => .error e

namespace Token

/-- Decode a token account owned by the token program. -/
def getToken (tp : Pubkey) (w : World) (k : Pubkey) : Except Err TokenAccount :=
  if (w k).owner = tp then
    match (w k).data with
    | .token t => .ok t
    | _ => .error (.token .InvalidAccount)
  else .error (.token .InvalidAccount)

/-- Decode a mint owned by the token program. -/
def getMint (tp : Pubkey) (w : World) (k : Pubkey) : Except Err Mint :=
  if (w k).owner = tp then
    match (w k).data with
    | .mint m => .ok m
    | _ => .error (.token .InvalidAccount)
  else .error (.token .InvalidAccount)

/-- `validate_owner` of spl-token: the authority is the expected one and has signed. -/
def validateOwner (signed : Pubkey → Bool) (expected authority : Pubkey) : Except Err Unit := do
  require (expected = authority) (.token .OwnerMismatch)
  require (signed authority = true) (.token .MissingSignature)

/-- Authorisation of a transfer or burn of `amount` out of `t`: by the delegate (within its
allowance, which is used up) or by the owner.  Returns the account with updated allowance. -/
def authorize (signed : Pubkey → Bool) (t : TokenAccount) (authority : Pubkey)
    (amount : UInt64) : Except Err TokenAccount :=
  if t.delegate = some authority then do
    require (signed authority = true) (.token .MissingSignature)
    let rest ← optErr (checkedSub64 t.delegated_amount amount) (.token .InsufficientFunds)
    .ok { t with
      delegated_amount := rest
      delegate := if rest = 0 then none else t.delegate }
  else do
    validateOwner signed t.owner authority
    .ok t

/-- spl-token `Transfer`. -/
def transfer (tp : Pubkey) (signed : Pubkey → Bool) (src dst authority : Pubkey)
    (amount : UInt64) (w : World) : Except Err World := do
  let s ← getToken tp w src
  let d ← getToken tp w dst
  require (s.frozen = false ∧ d.frozen = false) (.token .AccountFrozen)
  require (amount ≤ s.amount) (.token .InsufficientFunds)
  require (s.mint = d.mint) (.token .MintMismatch)
  let s' ← authorize signed s authority amount
  if src = dst then .ok w
  else do
    let sa ← optErr (checkedSub64 s.amount amount) (.token .InsufficientFunds)
    let da ← optErr (checkedAdd64 d.amount amount) (.token .Overflow)
    .ok ((w.setData src (.token { s' with amount := sa })).setData dst
      (.token { d with amount := da }))

/-- spl-token `MintTo`. -/
def mintTo (tp : Pubkey) (signed : Pubkey → Bool) (mint dst authority : Pubkey)
    (amount : UInt64) (w : World) : Except Err World := do
  let d ← getToken tp w dst
  require (d.frozen = false) (.token .AccountFrozen)
  require (d.mint = mint) (.token .MintMismatch)
  let m ← getMint tp w mint
  let auth ← optErr m.mint_authority (.token .FixedSupply)
  validateOwner signed auth authority
  let da ← optErr (checkedAdd64 d.amount amount) (.token .Overflow)
  let ms ← optErr (checkedAdd64 m.supply amount) (.token .Overflow)
  .ok ((w.setData dst (.token { d with amount := da })).setData mint
    (.mint { m with supply := ms }))

/-- spl-token `Burn`. -/
def burn (tp : Pubkey) (signed : Pubkey → Bool) (src mint authority : Pubkey)
    (amount : UInt64) (w : World) : Except Err World := do
  let s ← getToken tp w src
  let m ← getMint tp w mint
  require (s.frozen = false) (.token .AccountFrozen)
  require (amount ≤ s.amount) (.token .InsufficientFunds)
  require (s.mint = mint) (.token .MintMismatch)
  let s' ← authorize signed s authority amount
  let sa ← optErr (checkedSub64 s.amount amount) (.token .InsufficientFunds)
  let ms ← optErr (checkedSub64 m.supply amount) (.token .Overflow)
  .ok ((w.setData src (.token { s' with amount := sa })).setData mint
    (.mint { m with supply := ms }))

end Token
end Verif
