import Verif.Model.EcParams
import Verif.Model.Ameth

/-!
# Object identifiers of the Russian algorithms

The octets of an OBJECT IDENTIFIER (X.690, 8.19), for subidentifiers below 2^14, and the identifiers assigned by RFC 4357, RFC 4491,
RFC 7836 and TC 26, as arcs.
-/

namespace Gost
namespace Oid

/-- A subidentifier: seven bits per octet, all octets but the last with the top bit. -/
def sub (n : Nat) : Bytes :=
  if n < 128 then [BitVec.ofNat 8 n] else [BitVec.ofNat 8 (128 + n / 128), BitVec.ofNat 8 (n % 128)]

/-- The contents octets: the first two arcs share a subidentifier. -/
def octets : List Nat → Bytes
  | a :: b :: r => sub (40 * a + b) ++ r.flatMap sub
  | _ => []

/-- Curves: CryptoPro 1.2.643.2.2.35 and .36, TC 26 1.2.643.7.1.2.1.1 and .2. -/
def curve : CurveNid → List Nat
  | .Test => [1, 2, 643, 2, 2, 35, 0]
  | .CryptoPro_A => [1, 2, 643, 2, 2, 35, 1]
  | .CryptoPro_B => [1, 2, 643, 2, 2, 35, 2]
  | .CryptoPro_C => [1, 2, 643, 2, 2, 35, 3]
  | .CryptoPro_XchA => [1, 2, 643, 2, 2, 36, 0]
  | .CryptoPro_XchB => [1, 2, 643, 2, 2, 36, 1]
  | .tc26_256_paramSetA => [1, 2, 643, 7, 1, 2, 1, 1, 1]
  | .tc26_256_paramSetB => [1, 2, 643, 7, 1, 2, 1, 1, 2]
  | .tc26_256_paramSetC => [1, 2, 643, 7, 1, 2, 1, 1, 3]
  | .tc26_256_paramSetD => [1, 2, 643, 7, 1, 2, 1, 1, 4]
  | .tc26_512_paramSetTest => [1, 2, 643, 7, 1, 2, 1, 2, 0]
  | .tc26_512_paramSetA => [1, 2, 643, 7, 1, 2, 1, 2, 1]
  | .tc26_512_paramSetB => [1, 2, 643, 7, 1, 2, 1, 2, 2]
  | .tc26_512_paramSetC => [1, 2, 643, 7, 1, 2, 1, 2, 3]
  | .other _ => []

/-- Digests in key parameters (`other` stands for the test parameter set of GOST R 34.11-94 here). -/
def hash : HashNid → List Nat
  | .r3411_94_CryptoPro => [1, 2, 643, 2, 2, 30, 1]
  | .r3411_2012_256 => [1, 2, 643, 7, 1, 1, 2, 2]
  | .r3411_2012_512 => [1, 2, 643, 7, 1, 1, 2, 3]
  | .other => [1, 2, 643, 2, 2, 30, 0]

/-- Substitution blocks of GOST 28147-89. -/
def sbox : ParamNID → List Nat
  | .test => [1, 2, 643, 2, 2, 31, 0]
  | .cryptoProA => [1, 2, 643, 2, 2, 31, 1]
  | .cryptoProB => [1, 2, 643, 2, 2, 31, 2]
  | .cryptoProC => [1, 2, 643, 2, 2, 31, 3]
  | .cryptoProD => [1, 2, 643, 2, 2, 31, 4]
  | .tc26Z => [1, 2, 643, 7, 1, 2, 5, 1, 1]

/-- Key types. -/
def keyType : PkeyNid → List Nat
  | .gost2001 => [1, 2, 643, 2, 2, 19]
  | .gost2001DH => [1, 2, 643, 2, 2, 98]
  | .gost2012_256 => [1, 2, 643, 7, 1, 1, 1, 1]
  | .gost2012_512 => [1, 2, 643, 7, 1, 1, 1, 2]

/-- The digest named in the parameters of a key (RFC 4491, RFC 9215): always for keys of 2001; for keys of 2012 only with the curves
that existed before the parameter sets fixed the digest. -/
def digest : PkeyNid → CurveNid → Option HashNid
  | .gost2001, _ | .gost2001DH, _ => some .r3411_94_CryptoPro
  | .gost2012_256, .Test | .gost2012_256, .CryptoPro_A | .gost2012_256, .CryptoPro_B | .gost2012_256, .CryptoPro_C
  | .gost2012_256, .CryptoPro_XchA | .gost2012_256, .CryptoPro_XchB => some .r3411_2012_256
  | .gost2012_512, .tc26_512_paramSetTest | .gost2012_512, .tc26_512_paramSetA | .gost2012_512, .tc26_512_paramSetB => some .r3411_2012_512
  | _, _ => none

end Oid
end Gost
