import Verif.Spec.Modes
/-!
# Specification: Ascon-128a of version 1.2

The authenticated cipher Ascon-128a as submitted to the NIST lightweight competition (Ascon v1.2, 2021): the predecessor of
Ascon-AEAD128.  It has the same permutation and the same rate, but words are *big-endian*, the initial value is
`k ‖ r ‖ a ‖ b ‖ 0` = `0x80800c0800000000`, the padding is the byte `0x80` and the domain separation flips bit 0 of the last
word.  Written from the submission document, independently of the code; `Test/Kat128a.lean` evaluates it on a published vector.
-/

namespace Ascon.Spec.V12

/-- The big-endian value of eight bytes. -/
def be64 (b : List Byte) : Word := b.foldl (fun w x => w <<< 8 ||| x.setWidth 64) 0

/-- The eight bytes of a word, most significant first. -/
def beBytes (w : Word) : List Byte := (List.range 8).map fun i => (w >>> (56 - 8 * i)).setWidth 8

/-- Append `0x80` and zeros up to a multiple of 16 bytes. -/
def pad (m : List Byte) : List Byte := m ++ (0x80 : Byte) :: List.replicate (15 - m.length % 16) 0

/-- XOR a block of 16 bytes into the first two words. -/
def xorIn (s : State) (b : List Byte) : State := { s with x0 := s.x0 ^^^ be64 (b.take 8), x1 := s.x1 ^^^ be64 (b.drop 8) }

/-- The 16 bytes of the first two words. -/
def rate (s : State) : List Byte := beBytes s.x0 ++ beBytes s.x1

def iv : Word := 0x80800c0800000000

/-- Initialisation. -/
def init (k n : List Byte) : State :=
  let s := perm 12 { x0 := iv, x1 := be64 (k.take 8), x2 := be64 (k.drop 8), x3 := be64 (n.take 8), x4 := be64 (n.drop 8) }
  { s with x3 := s.x3 ^^^ be64 (k.take 8), x4 := s.x4 ^^^ be64 (k.drop 8) }

/-- Associated data, then domain separation. -/
def absorbAd (a : List Byte) (s : State) : State :=
  let s := if a = [] then s else (fullBlocks 16 (pad a)).foldl (fun s b => perm 8 (xorIn s b)) s
  { s with x4 := s.x4 ^^^ 1 }

/-- Encrypt complete blocks. -/
def encBlocks : State → List (List Byte) → State × List Byte
  | s, [] => (s, [])
  | s, p :: ps =>
    let s := xorIn s p
    let r := encBlocks (perm 8 s) ps
    (r.1, rate s ++ r.2)

/-- Encrypt a plaintext. -/
def encBody (s : State) (p : List Byte) : State × List Byte :=
  let r := encBlocks s (fullBlocks 16 p)
  let l := lastBlock 16 p
  let s := xorIn r.1 (pad l)
  (s, r.2 ++ (rate s).take l.length)

/-- Decrypt complete blocks. -/
def decBlocks : State → List (List Byte) → State × List Byte
  | s, [] => (s, [])
  | s, c :: cs =>
    let p := xorBytes (rate s) c
    let r := decBlocks (perm 8 (xorIn s p)) cs
    (r.1, p ++ r.2)

/-- Decrypt a ciphertext body. -/
def decBody (s : State) (c : List Byte) : State × List Byte :=
  let r := decBlocks s (fullBlocks 16 c)
  let l := lastBlock 16 c
  let p := xorBytes ((rate r.1).take l.length) l
  (xorIn r.1 (pad p), r.2 ++ p)

/-- What becomes of `decBody` if the last, partial block of the ciphertext has been overwritten with the plaintext before it is
used for the new state: the state after *encrypting* that block of ciphertext. -/
def decBodyInPlace (s : State) (c : List Byte) : State × List Byte :=
  let r := decBlocks s (fullBlocks 16 c)
  let l := lastBlock 16 c
  (xorIn r.1 (pad l), r.2 ++ xorBytes ((rate r.1).take l.length) l)

/-- Finalisation. -/
def tag (k : List Byte) (s : State) : List Byte :=
  let s := perm 12 { s with x2 := s.x2 ^^^ be64 (k.take 8), x3 := s.x3 ^^^ be64 (k.drop 8) }
  beBytes (s.x3 ^^^ be64 (k.take 8)) ++ beBytes (s.x4 ^^^ be64 (k.drop 8))

/-- Ascon-128a (v1.2) encryption: ciphertext followed by the tag. -/
def encrypt (k n a p : List Byte) : List Byte :=
  let r := encBody (absorbAd a (init k n)) p
  r.2 ++ tag k r.1

/-- The plaintext candidate of a ciphertext body. -/
def candidate (k n a c : List Byte) : List Byte := (decBody (absorbAd a (init k n)) c).2

/-- The tag that decryption computes. -/
def decTag (k n a c : List Byte) : List Byte := tag k (decBody (absorbAd a (init k n)) c).1

/-- Ascon-128a (v1.2) verified decryption. -/
def decrypt (k n a ct : List Byte) : Option (List Byte) :=
  if ct.length < 16 then none
  else
    let c := ct.take (ct.length - 16)
    let t := ct.drop (ct.length - 16)
    if t = decTag k n a c then some (candidate k n a c) else none

end Ascon.Spec.V12
