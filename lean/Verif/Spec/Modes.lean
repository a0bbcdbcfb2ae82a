import Verif.Spec.Perm
/-!
# Specification: the Ascon modes

SP 800-232 Ascon-AEAD128, Ascon-Hash256, Ascon-XOF128, Ascon-CXOF128, and the
Ascon-Mac / Ascon-Prf / Ascon-PrfShort functions ("Ascon MAC, PRF, and short-input PRF")
in their little-endian (v1.3) form.
-/

namespace Ascon.Spec

/-- The 40 bytes of the state. -/
def stateBytes (s : State) : List Byte :=
  bytes64 s.x0 ++ bytes64 s.x1 ++ bytes64 s.x2 ++ bytes64 s.x3 ++ bytes64 s.x4

/-- The first `r` bytes of the state ("rate"). -/
def rate (r : Nat) (s : State) : List Byte := (stateBytes s).take r

/-- XOR a byte string into the first bytes of the state. -/
def xorIn (s : State) (b : List Byte) : State :=
  { x0 := s.x0 ^^^ le64 (b.take 8)
    x1 := s.x1 ^^^ le64 ((b.drop 8).take 8)
    x2 := s.x2 ^^^ le64 ((b.drop 16).take 8)
    x3 := s.x3 ^^^ le64 ((b.drop 24).take 8)
    x4 := s.x4 ^^^ le64 ((b.drop 32).take 8) }

def xorBytes (a b : List Byte) : List Byte := List.zipWith (· ^^^ ·) a b

/-- Absorb a sequence of blocks, applying `Ascon-p[rnd]` after each. -/
def absorb (rnd : Nat) (s : State) (bs : List (List Byte)) : State :=
  bs.foldl (fun s b => perm rnd (xorIn s b)) s

/-! ## Initial values (SP 800-232, Table 12; little-endian integers) -/

def ivAead : Word := 0x00001000808c0001
def ivHash : Word := 0x0000080100cc0002
def ivXof  : Word := 0x0000080000cc0003
def ivCxof : Word := 0x0000080000cc0004
def ivMac  : Word := 0x0010200080cc0005
def ivPrf  : Word := 0x0010200000cc0006
/-- Ascon-PrfShort: IV with the message bit length in the top byte. -/
def ivPrfs (mlen : Nat) : Word := 0x00000000800c0007 ^^^ BitVec.ofNat 64 (8 * mlen * 2 ^ 48)

/-! ## Ascon-AEAD128 -/

/-- `S ⊕ (0^{192} ‖ K)`: add the key to the last two words. -/
def addKeyLast (k : List Byte) (s : State) : State :=
  { s with x3 := s.x3 ^^^ le64 (k.take 8), x4 := s.x4 ^^^ le64 (k.drop 8) }

/-- `S ⊕ (0^{128} ‖ K ‖ 0^{64})`: add the key right after the 128-bit rate. -/
def addKeyMid (k : List Byte) (s : State) : State :=
  { s with x2 := s.x2 ^^^ le64 (k.take 8), x3 := s.x3 ^^^ le64 (k.drop 8) }

/-- Initialisation with key and nonce. -/
def aeadInit (k n : List Byte) : State :=
  addKeyLast k (perm 12
    { x0 := ivAead, x1 := le64 (k.take 8), x2 := le64 (k.drop 8),
      x3 := le64 (n.take 8), x4 := le64 (n.drop 8) })

/-- Associated data: nothing if empty; otherwise the padded blocks; then the
domain-separation bit (the very last bit of the state). -/
def aeadAd (a : List Byte) (s : State) : State :=
  let s := if a = [] then s else absorb 8 s (fullBlocks 16 (pad 16 a))
  { s with x4 := s.x4 ^^^ 0x8000000000000000 }

/-- Encrypt complete blocks: new state and ciphertext. -/
def encBlocks : State → List (List Byte) → State × List Byte
  | s, [] => (s, [])
  | s, p :: ps =>
    let s := xorIn s p
    let r := encBlocks (perm 8 s) ps
    (r.1, rate 16 s ++ r.2)

/-- Encrypt a plaintext: complete blocks, then the padded last partial block
(which may be empty), whose ciphertext is truncated. -/
def encBody (s : State) (p : List Byte) : State × List Byte :=
  let r := encBlocks s (fullBlocks 16 p)
  let l := lastBlock 16 p
  let s := xorIn r.1 (pad 16 l)
  (s, r.2 ++ rate l.length s)

/-- Decrypt complete blocks: new state and plaintext. -/
def decBlocks : State → List (List Byte) → State × List Byte
  | s, [] => (s, [])
  | s, c :: cs =>
    let p := xorBytes (rate 16 s) c
    let r := decBlocks (perm 8 (xorIn s p)) cs
    (r.1, p ++ r.2)

/-- Decrypt a ciphertext body: complete blocks, then the last partial block. -/
def decBody (s : State) (c : List Byte) : State × List Byte :=
  let r := decBlocks s (fullBlocks 16 c)
  let l := lastBlock 16 c
  let p := xorBytes (rate l.length r.1) l
  (xorIn r.1 (pad 16 p), r.2 ++ p)

/-- Finalisation: the 16-byte tag. -/
def aeadTag (k : List Byte) (s : State) : List Byte :=
  let s := addKeyLast k (perm 12 (addKeyMid k s))
  bytes64 s.x3 ++ bytes64 s.x4

/-- Ascon-AEAD128 encryption: ciphertext followed by the 16-byte tag. -/
def aeadEncrypt (k n a p : List Byte) : List Byte :=
  let r := encBody (aeadAd a (aeadInit k n)) p
  r.2 ++ aeadTag k r.1

/-- The plaintext candidate of a ciphertext body (before verification). -/
def aeadCandidate (k n a c : List Byte) : List Byte :=
  (decBody (aeadAd a (aeadInit k n)) c).2

/-- The tag that decryption recomputes. -/
def aeadDecTag (k n a c : List Byte) : List Byte :=
  aeadTag k (decBody (aeadAd a (aeadInit k n)) c).1

/-- Ascon-AEAD128 verified decryption of `c ‖ t` (`t` the last 16 bytes). -/
def aeadDecrypt (k n a ct : List Byte) : Option (List Byte) :=
  if ct.length < 16 then none
  else
    let c := ct.take (ct.length - 16)
    let t := ct.drop (ct.length - 16)
    if t = aeadDecTag k n a c then some (aeadCandidate k n a c) else none

/-! ## Ascon-Hash256, Ascon-XOF128, Ascon-CXOF128 -/

/-- `i` applications of `Ascon-p[12]`. -/
def iterPerm : Nat → State → State
  | 0, s => s
  | i + 1, s => perm 12 (iterPerm i s)

/-- `n` bytes of output, `r` bytes per application of `Ascon-p[12]`. -/
def squeeze (r : Nat) (s : State) (n : Nat) : List Byte :=
  (((List.range (n / r + 1)).map fun i => rate r (iterPerm i s)).flatten).take n

/-- Initial sponge state `Ascon-p[12](IV ‖ 0^{256})`. -/
def spongeInit (iv : Word) : State := perm 12 { x0 := iv, x1 := 0, x2 := 0, x3 := 0, x4 := 0 }

def hash256 (m : List Byte) : List Byte :=
  squeeze 8 (absorb 12 (spongeInit ivHash) (fullBlocks 8 (pad 8 m))) 32

def xof128 (m : List Byte) (n : Nat) : List Byte :=
  squeeze 8 (absorb 12 (spongeInit ivXof) (fullBlocks 8 (pad 8 m))) n

/-- The blocks absorbed by CXOF: bit length of `z` as a 64-bit word, then `z` padded, then `m` padded. -/
def cxofBlocks (z m : List Byte) : List (List Byte) :=
  bytes64 (BitVec.ofNat 64 (8 * z.length)) :: (fullBlocks 8 (pad 8 z) ++ fullBlocks 8 (pad 8 m))

def cxof128 (z m : List Byte) (n : Nat) : List Byte :=
  squeeze 8 (absorb 12 (spongeInit ivCxof) (cxofBlocks z m)) n

/-! ## Ascon-Mac, Ascon-Prf, Ascon-PrfShort -/

/-- Keyed initialisation `Ascon-p[12](IV ‖ K ‖ 0^{128})`. -/
def prfInit (iv : Word) (k : List Byte) : State :=
  perm 12 { x0 := iv, x1 := le64 (k.take 8), x2 := le64 (k.drop 8), x3 := 0, x4 := 0 }

/-- Absorb with rate 256 bits; the last bit of the state is flipped with the last
(padded) block, before its permutation. -/
def prfAbsorb (s : State) (m : List Byte) : State :=
  let s := absorb 12 s (fullBlocks 32 m)
  let s := xorIn s (pad 32 (lastBlock 32 m))
  perm 12 { s with x4 := s.x4 ^^^ 0x8000000000000000 }

/-- Ascon-Prf (and Ascon-Mac) with `n` bytes of output, output rate 128 bits. -/
def prfWith (iv : Word) (k m : List Byte) (n : Nat) : List Byte :=
  squeeze 16 (prfAbsorb (prfInit iv k) m) n

def prf (k m : List Byte) (n : Nat) : List Byte := prfWith ivPrf k m n
def mac (k m : List Byte) : List Byte := prfWith ivMac k m 16

/-- Ascon-PrfShort for messages of at most 16 bytes: first `n` bytes of the last 128
bits of `Ascon-p[12](IV ‖ K ‖ M ‖ 0*)` XOR the key. -/
def prfShort (k m : List Byte) (n : Nat) : List Byte :=
  let s := perm 12
    { x0 := ivPrfs m.length, x1 := le64 (k.take 8), x2 := le64 (k.drop 8),
      x3 := le64 (m.take 8), x4 := le64 (m.drop 8) }
  let s := addKeyLast k s
  (bytes64 s.x3 ++ bytes64 s.x4).take n

end Ascon.Spec
