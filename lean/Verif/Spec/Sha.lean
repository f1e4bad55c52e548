/-
SHA-256 (FIPS 180-4) on byte lists, used to check the eight-byte tags that Anchor derives from
instruction and account names.  Nothing else depends on it.
-/

namespace Verif
namespace Spec
namespace Sha

/-- Round constants (FIPS 180-4, section 4.2.2). -/
def K : List Nat := [
  0x428a2f98, 0x71374491, 0xb5c0fbcf, 0xe9b5dba5, 0x3956c25b, 0x59f111f1, 0x923f82a4, 0xab1c5ed5,
  0xd807aa98, 0x12835b01, 0x243185be, 0x550c7dc3, 0x72be5d74, 0x80deb1fe, 0x9bdc06a7, 0xc19bf174,
  0xe49b69c1, 0xefbe4786, 0x0fc19dc6, 0x240ca1cc, 0x2de92c6f, 0x4a7484aa, 0x5cb0a9dc, 0x76f988da,
  0x983e5152, 0xa831c66d, 0xb00327c8, 0xbf597fc7, 0xc6e00bf3, 0xd5a79147, 0x06ca6351, 0x14292967,
  0x27b70a85, 0x2e1b2138, 0x4d2c6dfc, 0x53380d13, 0x650a7354, 0x766a0abb, 0x81c2c92e, 0x92722c85,
  0xa2bfe8a1, 0xa81a664b, 0xc24b8b70, 0xc76c51a3, 0xd192e819, 0xd6990624, 0xf40e3585, 0x106aa070,
  0x19a4c116, 0x1e376c08, 0x2748774c, 0x34b0bcb5, 0x391c0cb3, 0x4ed8aa4a, 0x5b9cca4f, 0x682e6ff3,
  0x748f82ee, 0x78a5636f, 0x84c87814, 0x8cc70208, 0x90befffa, 0xa4506ceb, 0xbef9a3f7, 0xc67178f2]

/-- Initial hash value (section 5.3.3). -/
def H0 : List Nat := [0x6a09e667, 0xbb67ae85, 0x3c6ef372, 0xa54ff53a, 0x510e527f, 0x9b05688c,
  0x1f83d9ab, 0x5be0cd19]

def W : Nat := 4294967296
def rotr (n x : Nat) : Nat := (x >>> n) ||| ((x <<< (32 - n)) % W)
def bigS0 (x : Nat) : Nat := rotr 2 x ^^^ rotr 13 x ^^^ rotr 22 x
def bigS1 (x : Nat) : Nat := rotr 6 x ^^^ rotr 11 x ^^^ rotr 25 x
def smallS0 (x : Nat) : Nat := rotr 7 x ^^^ rotr 18 x ^^^ (x >>> 3)
def smallS1 (x : Nat) : Nat := rotr 17 x ^^^ rotr 19 x ^^^ (x >>> 10)
def ch (x y z : Nat) : Nat := (x &&& y) ^^^ ((W - 1 - x) &&& z)
def maj (x y z : Nat) : Nat := (x &&& y) ^^^ (x &&& z) ^^^ (y &&& z)

/-- Message schedule (section 6.2.2, step 1), newest word first. -/
def schedule : Nat → List Nat → List Nat
  | 0, ws => ws
  | n + 1, ws => schedule n
    ((smallS1 (ws.getD 1 0) + ws.getD 6 0 + smallS0 (ws.getD 14 0) + ws.getD 15 0) % W :: ws)

/-- One round (step 3). -/
def round (kw : Nat) : List Nat → List Nat
  | [a, b, c, d, e, f, g, h] =>
    let t1 := h + bigS1 e + ch e f g + kw
    let t2 := bigS0 a + maj a b c
    [(t1 + t2) % W, a, b, c, (d + t1) % W, e, f, g]
  | s => s

def rounds : List Nat → List Nat → List Nat → List Nat
  | k :: ks, w :: ws, s => rounds ks ws (round (k + w) s)
  | _, _, s => s

/-- One block of sixteen words (steps 1-4). -/
def block (hs ws : List Nat) : List Nat :=
  List.zipWith (fun x y => (x + y) % W) hs (rounds K (schedule 48 ws.reverse).reverse hs)

/-- Big-endian words. -/
def wordsOf : List UInt8 → List Nat
  | a :: b :: c :: d :: l =>
    (a.toNat * 16777216 + b.toNat * 65536 + c.toNat * 256 + d.toNat) :: wordsOf l
  | _ => []

/-- Padding (section 5.1.1) of a message of at most 55 bytes to one block. -/
def pad (m : List UInt8) : List UInt8 :=
  m ++ 128 :: List.replicate (61 - m.length) 0 ++
    [UInt8.ofNat (8 * m.length / 256), UInt8.ofNat (8 * m.length % 256)]

/-- Bytes of a word. -/
def bytesOf (x : Nat) : List UInt8 :=
  [UInt8.ofNat (x / 16777216), UInt8.ofNat (x / 65536 % 256), UInt8.ofNat (x / 256 % 256),
   UInt8.ofNat (x % 256)]

/-- SHA-256 of a message that fits one block (at most 55 bytes). -/
def sha256 (m : List UInt8) : List UInt8 := (block H0 (wordsOf (pad m))).flatMap bytesOf

/-- ASCII bytes. -/
def ascii (s : String) : List UInt8 := s.toList.map fun c => UInt8.ofNat c.toNat

/-- Eight-byte tag of a name. -/
def tag8 (s : String) : List UInt8 := (sha256 (ascii s)).take 8

end Sha
end Spec
end Verif
