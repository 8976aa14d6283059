import Verif.Model.Asn1

/-!
# PKCS#8

OpenSSL's `PKCS8_PRIV_KEY_INFO` around what `priv_encode_gost` and `priv_decode_gost` of `/repo/gost_ameth.c` make and take:
`SEQUENCE { version INTEGER, algorithm, OCTET STRING, attributes [0] OPTIONAL }`, as i2d and d2i carry it out on bytes.
-/

namespace Gost
namespace Asn

/-- `i2d_PKCS8_PRIV_KEY_INFO` after `PKCS8_pkey_set0(p8, algobj, 0, V_ASN1_SEQUENCE, params, octets, len)`, `/repo/gost_ameth.c` lines
718-722: version 0, no attributes. -/
def encP8 (k : KeyInfo) : Bytes :=
  tlv 0x30 (tlv 2 [0] ++
    (tlv 0x30 (putOid (k.algor.alg.bind (toOid pkeyOids)) ++ match k.algor.params with | .seq der => der | .other => []) ++ tlv 4 k.key))

/-- `d2i_PKCS8_PRIV_KEY_INFO`, then `PKCS8_pkey_get0`, `/repo/gost_ameth.c` line 599: the version is any INTEGER that is not negative.
Simplification: the attributes are skipped; OpenSSL parses them. -/
def decP8 (b : Bytes) : Option (KeyInfo × Bytes) := do
  let (x, rest) ← field 0x30 b
  let _ ← decInteger x
  let (_, r) ← field 2 x
  let (a, r) ← field 0x30 r
  let (o, p) ← getOid a
  let params ← anyParams p
  let (key, r) ← field 4 r
  let (_, r) ← optField 0xA0 r
  atEnd r
  some (⟨⟨ofOid pkeyOids o, params⟩, key⟩, rest)

end Asn
end Gost
