import Verif.Spec.Kuznyechik

/-!
# Specification of GOST R 34.11-2012 (Streebog), RFC 6986

A 512-bit vector is a list of 64 bytes, least significant byte first (so the digest of the standard, a number
written most significant digit first, is the list read backwards; RFC 6986 prints the list in the
order used here).  Independent of the model of the code.
-/

namespace Gost.Spec.Streebog

/-- The rows of the matrix A of section 5.4; row `i` belongs to bit `63 - i` of the multiplied vector. -/
def A : List (BitVec 64) :=
  [
   0x8e20faa72ba0b470#64, 0x47107ddd9b505a38#64, 0xad08b0e0c3282d1c#64, 0xd8045870ef14980e#64,
   0x6c022c38f90a4c07#64, 0x3601161cf205268d#64, 0x1b8e0b0e798c13c8#64, 0x83478b07b2468764#64,
   0xa011d380818e8f40#64, 0x5086e740ce47c920#64, 0x2843fd2067adea10#64, 0x14aff010bdd87508#64,
   0x0ad97808d06cb404#64, 0x05e23c0468365a02#64, 0x8c711e02341b2d01#64, 0x46b60f011a83988e#64,
   0x90dab52a387ae76f#64, 0x486dd4151c3dfdb9#64, 0x24b86a840e90f0d2#64, 0x125c354207487869#64,
   0x092e94218d243cba#64, 0x8a174a9ec8121e5d#64, 0x4585254f64090fa0#64, 0xaccc9ca9328a8950#64,
   0x9d4df05d5f661451#64, 0xc0a878a0a1330aa6#64, 0x60543c50de970553#64, 0x302a1e286fc58ca7#64,
   0x18150f14b9ec46dd#64, 0x0c84890ad27623e0#64, 0x0642ca05693b9f70#64, 0x0321658cba93c138#64,
   0x86275df09ce8aaa8#64, 0x439da0784e745554#64, 0xafc0503c273aa42a#64, 0xd960281e9d1d5215#64,
   0xe230140fc0802984#64, 0x71180a8960409a42#64, 0xb60c05ca30204d21#64, 0x5b068c651810a89e#64,
   0x456c34887a3805b9#64, 0xac361a443d1c8cd2#64, 0x561b0d22900e4669#64, 0x2b838811480723ba#64,
   0x9bcf4486248d9f5d#64, 0xc3e9224312c8c1a0#64, 0xeffa11af0964ee50#64, 0xf97d86d98a327728#64,
   0xe4fa2054a80b329c#64, 0x727d102a548b194e#64, 0x39b008152acb8227#64, 0x9258048415eb419d#64,
   0x492c024284fbaec0#64, 0xaa16012142f35760#64, 0x550b8e9e21f7a530#64, 0xa48b474f9ef5dc18#64,
   0x70a6a56e2440598e#64, 0x3853dc371220a247#64, 0x1ca76e95091051ad#64, 0x0edd37c48a08a6d8#64,
   0x07e095624504536c#64, 0x8d70c431ac02a736#64, 0xc83862965601dd1b#64, 0x641c314b2b8ee083#64
  ]

/-- The linear transformation `l` of 64-bit vectors: the sum of the rows of A selected by the bits. -/
def l (w : BitVec 64) : BitVec 64 :=
  (List.range 64).foldl (fun acc i => acc ^^^ (if w.getLsbD (63 - i) then A.getD i 0 else 0)) 0

/-- S: the substitution π (the same as that of Kuznyechik) in every byte. -/
def S (a : Blk) : Blk := a.map Kuz.pi

/-- P: byte `k` of the result is byte `τ(k)`; τ transposes the 8 × 8 matrix of bytes. -/
def P (a : Blk) : Blk := (List.range 64).map fun k => a.getD (8 * (k % 8) + k / 8) 0

/-- L: `l` in each of the eight 64-bit vectors. -/
def L (a : Blk) : Blk :=
  (List.range 8).flatMap fun i => leBytes 8 (l (BitVec.ofNat 64 (leNat ((a.drop (8 * i)).take 8)))).toNat

def LPS (a : Blk) : Blk := L (P (S a))

/-- The iteration constants C_1 ... C_12 of section 5.5. -/
def C : List Blk := [
  leBytes 64 0xb1085bda1ecadae9ebcb2f81c0657c1f2f6a76432e45d016714eb88d7585c4fc4b7ce09192676901a2422a08a460d31505767436cc744d23dd806559f2a64507,
  leBytes 64 0x6fa3b58aa99d2f1a4fe39d460f70b5d7f3feea720a232b9861d55e0f16b501319ab5176b12d699585cb561c2db0aa7ca55dda21bd7cbcd56e679047021b19bb7,
  leBytes 64 0xf574dcac2bce2fc70a39fc286a3d843506f15e5f529c1f8bf2ea7514b1297b7bd3e20fe490359eb1c1c93a376062db09c2b6f443867adb31991e96f50aba0ab2,
  leBytes 64 0xef1fdfb3e81566d2f948e1a05d71e4dd488e857e335c3c7d9d721cad685e353fa9d72c82ed03d675d8b71333935203be3453eaa193e837f1220cbebc84e3d12e,
  leBytes 64 0x4bea6bacad4747999a3f410c6ca923637f151c1f1686104a359e35d7800fffbdbfcd1747253af5a3dfff00b723271a167a56a27ea9ea63f5601758fd7c6cfe57,
  leBytes 64 0xae4faeae1d3ad3d96fa4c33b7a3039c02d66c4f95142a46c187f9ab49af08ec6cffaa6b71c9ab7b40af21f66c2bec6b6bf71c57236904f35fa68407a46647d6e,
  leBytes 64 0xf4c70e16eeaac5ec51ac86febf240954399ec6c7e6bf87c9d3473e33197a93c90992abc52d822c3706476983284a05043517454ca23c4af38886564d3a14d493,
  leBytes 64 0x9b1f5b424d93c9a703e7aa020c6e41414eb7f8719c36de1e89b4443b4ddbc49af4892bcb929b069069d18d2bd1a5c42f36acc2355951a8d9a47f0dd4bf02e71e,
  leBytes 64 0x378f5a541631229b944c9ad8ec165fde3a7d3a1b258942243cd955b7e00d0984800a440bdbb2ceb17b2b8a9aa6079c540e38dc92cb1f2a607261445183235adb,
  leBytes 64 0xabbedea680056f52382ae548b2e4f3f38941e71cff8a78db1fffe18a1b3361039fe76702af69334b7a1e6c303b7652f43698fad1153bb6c374b4c7fb98459ced,
  leBytes 64 0x7bcd9ed0efc889fb3002c6cd635afe94d8fa6bbbebab076120018021148466798a1d71efea48b9caefbacd1d7d476e98dea2594ac06fd85d6bcaa4cd81f32d1b,
  leBytes 64 0x378ee767f11631bad21380b00449b17acda43c32bcdf1d77f82012d430219f9b5d80ef9d1891cc86e71da4aa88e12852faf417d5d9b21b9948bc924af11bd720]

/-- The round keys K_1, ..., K_13: `K_{i+1} = LPS(K_i ⊕ C_i)`. -/
def key (K : Blk) (i : Nat) : Blk := (C.take i).foldl (fun k c => LPS (xor k c)) K

/-- E(K, m) = X[K_13] LPSX[K_12] ... LPSX[K_1](m). -/
def E (K m : Blk) : Blk :=
  xor (key K 12) ((List.range 12).foldl (fun a i => LPS (xor (key K i) a)) m)

/-- The compression function g_N(h, m) = E(LPS(h ⊕ N), m) ⊕ h ⊕ m. -/
def g (N h m : Blk) : Blk := xor (xor (E (LPS (xor h N)) m) h) m

/-- The 512-bit vector of a number, modulo 2^512. -/
def vec (n : Nat) : Blk := leBytes 64 n

/-- The whole 64-byte blocks of a message. -/
def whole (m : Blk) : List Blk := blocks 64 (m.take (64 * (m.length / 64)))

/-- The last block: the rest of the message (0 to 63 bytes), a one bit (the byte 1), zeros. -/
def padded (m : Blk) : Blk :=
  let r := m.drop (64 * (m.length / 64))
  r ++ [1] ++ List.replicate (63 - r.length) 0

/-- The hash function with initialising value `iv`: all whole blocks are compressed with the number of bits
preceding them, then the padded block, the bit length of the message and the sum of all blocks modulo 2^512. -/
def hash (iv m : Blk) : Blk :=
  let h := (whole m).zipIdx.foldl (fun h p => g (vec (512 * p.2)) h p.1) iv
  let h := g (vec (512 * (m.length / 64))) h (padded m)
  let h := g (vec 0) h (vec (8 * m.length))
  g (vec 0) h (vec (((whole m ++ [padded m]).map leNat).sum))

/-- The 512-bit hash function: IV 0^512. -/
def hash512 (m : Blk) : Blk := hash (List.replicate 64 0) m

/-- The 256-bit hash function: IV (00000001)^64, the upper half of the result. -/
def hash256 (m : Blk) : Blk := (hash (List.replicate 64 1) m).drop 32

end Gost.Spec.Streebog
