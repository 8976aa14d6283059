import Verif.Model.AcpkmOmac
import Verif.Model.Ameth
import Verif.Model.AoHeap
import Verif.Model.Asn1
import Verif.Model.Basic
import Verif.Model.BigEndian
import Verif.Model.Buffers
import Verif.Model.CipherAsn1
import Verif.Model.CipherTrace
import Verif.Model.CmsKey
import Verif.Model.DigestHeap
import Verif.Model.DigestSign
import Verif.Model.Ec
import Verif.Model.EcParams
import Verif.Model.EcThreads
import Verif.Model.Ecp.CryptoPro_A
import Verif.Model.Ecp.CryptoPro_A_32
import Verif.Model.Ecp.CryptoPro_B
import Verif.Model.Ecp.CryptoPro_B_32
import Verif.Model.Ecp.CryptoPro_C
import Verif.Model.Ecp.CryptoPro_C_32
import Verif.Model.Ecp.Test
import Verif.Model.Ecp.Test_32
import Verif.Model.Ecp.tc26_256_paramSetA
import Verif.Model.Ecp.tc26_256_paramSetA_32
import Verif.Model.Ecp.tc26_512_paramSetA
import Verif.Model.Ecp.tc26_512_paramSetA_32
import Verif.Model.Ecp.tc26_512_paramSetB
import Verif.Model.Ecp.tc26_512_paramSetB_32
import Verif.Model.Ecp.tc26_512_paramSetC
import Verif.Model.Ecp.tc26_512_paramSetC_32
import Verif.Model.EcpField
import Verif.Model.EcpFiles
import Verif.Model.EcpProgs
import Verif.Model.EcpScalar
import Verif.Model.EcpSmul
import Verif.Model.EcpTrace
import Verif.Model.EngLife
import Verif.Model.Engine
import Verif.Model.Fiat
import Verif.Model.FiatField
import Verif.Model.GF
import Verif.Model.Gost89
import Verif.Model.Gost89Keyed
import Verif.Model.Gost94
import Verif.Model.GostModes
import Verif.Model.Gostsum
import Verif.Model.Imit
import Verif.Model.KeyCheck
import Verif.Model.KeyExp
import Verif.Model.KeyTransport
import Verif.Model.KeyWrap
import Verif.Model.KuzModes
import Verif.Model.KuzTables
import Verif.Model.Kuznyechik
import Verif.Model.Loops
import Verif.Model.MacPkey
import Verif.Model.MethThreads
import Verif.Model.Mgm
import Verif.Model.MgmHeap
import Verif.Model.OmacAcpkm
import Verif.Model.OmacHeap
import Verif.Model.ParamThreads
import Verif.Model.Pkcs8
import Verif.Model.PkeyStr
import Verif.Model.Print
import Verif.Model.PrivBytes
import Verif.Model.ProvAead
import Verif.Model.ProvAsn1
import Verif.Model.ProvCipher
import Verif.Model.ProvDigest
import Verif.Model.ProvLife
import Verif.Model.ProvMac
import Verif.Model.Residue
import Verif.Model.Resources
import Verif.Model.SBoxes
import Verif.Model.Streebog
import Verif.Model.StreebogBE
import Verif.Model.StreebogTables
import Verif.Model.StreebogTablesBE
import Verif.Model.TlsRecord
import Verif.Spec.AcpkmOmac
import Verif.Spec.Der
import Verif.Spec.DerInt
import Verif.Spec.Digits
import Verif.Spec.EcParams
import Verif.Spec.EcPoint
import Verif.Spec.EcSign
import Verif.Spec.GFPoly
import Verif.Spec.Gost28147
import Verif.Spec.Gost94
import Verif.Spec.Gostsum
import Verif.Spec.Imit
import Verif.Spec.KeyExp
import Verif.Spec.KeyWrap
import Verif.Spec.Kuznyechik
import Verif.Spec.Mgm
import Verif.Spec.Modes
import Verif.Spec.Oid
import Verif.Spec.Omac
import Verif.Spec.Print
import Verif.Spec.ProvCipher
import Verif.Spec.Resources
import Verif.Spec.Stream
import Verif.Spec.Streebog
import Verif.Lemmas.Basic
import Verif.Lemmas.BlockModes
import Verif.Lemmas.Buffers
import Verif.Lemmas.CntAdd
import Verif.Lemmas.CtBounds
import Verif.Lemmas.CtNonInterference
import Verif.Lemmas.CtRefine
import Verif.Lemmas.CtTwo
import Verif.Lemmas.Ec
import Verif.Lemmas.EcCompute
import Verif.Lemmas.EcCurves256
import Verif.Lemmas.EcCurves512
import Verif.Lemmas.EcCurves512b
import Verif.Lemmas.EcCurves512c
import Verif.Lemmas.EcCurves512t
import Verif.Lemmas.EcFacts
import Verif.Lemmas.EcOrder
import Verif.Lemmas.Ecp.CryptoPro_A
import Verif.Lemmas.Ecp.CryptoPro_A_32
import Verif.Lemmas.Ecp.CryptoPro_A_32_Curve
import Verif.Lemmas.Ecp.CryptoPro_A_Chain
import Verif.Lemmas.Ecp.CryptoPro_A_Curve
import Verif.Lemmas.Ecp.CryptoPro_B
import Verif.Lemmas.Ecp.CryptoPro_B_32
import Verif.Lemmas.Ecp.CryptoPro_B_32_Curve
import Verif.Lemmas.Ecp.CryptoPro_B_Chain
import Verif.Lemmas.Ecp.CryptoPro_B_Curve
import Verif.Lemmas.Ecp.CryptoPro_C
import Verif.Lemmas.Ecp.CryptoPro_C_32
import Verif.Lemmas.Ecp.CryptoPro_C_32_Curve
import Verif.Lemmas.Ecp.CryptoPro_C_Chain
import Verif.Lemmas.Ecp.CryptoPro_C_Curve
import Verif.Lemmas.Ecp.Test
import Verif.Lemmas.Ecp.Test_32
import Verif.Lemmas.Ecp.Test_32_Curve
import Verif.Lemmas.Ecp.Test_Chain
import Verif.Lemmas.Ecp.Test_Curve
import Verif.Lemmas.Ecp.tc26_256_paramSetA
import Verif.Lemmas.Ecp.tc26_256_paramSetA_32
import Verif.Lemmas.Ecp.tc26_256_paramSetA_32_Curve
import Verif.Lemmas.Ecp.tc26_256_paramSetA_Chain
import Verif.Lemmas.Ecp.tc26_256_paramSetA_Curve
import Verif.Lemmas.Ecp.tc26_512_paramSetA
import Verif.Lemmas.Ecp.tc26_512_paramSetA_32
import Verif.Lemmas.Ecp.tc26_512_paramSetA_32_Curve
import Verif.Lemmas.Ecp.tc26_512_paramSetA_Chain
import Verif.Lemmas.Ecp.tc26_512_paramSetA_Curve
import Verif.Lemmas.Ecp.tc26_512_paramSetB
import Verif.Lemmas.Ecp.tc26_512_paramSetB_32
import Verif.Lemmas.Ecp.tc26_512_paramSetB_32_Curve
import Verif.Lemmas.Ecp.tc26_512_paramSetB_Chain
import Verif.Lemmas.Ecp.tc26_512_paramSetB_Curve
import Verif.Lemmas.Ecp.tc26_512_paramSetC
import Verif.Lemmas.Ecp.tc26_512_paramSetC_32
import Verif.Lemmas.Ecp.tc26_512_paramSetC_32_Curve
import Verif.Lemmas.Ecp.tc26_512_paramSetC_Chain
import Verif.Lemmas.Ecp.tc26_512_paramSetC_Curve
import Verif.Lemmas.EcpCurve
import Verif.Lemmas.EcpEd
import Verif.Lemmas.EcpEdwards
import Verif.Lemmas.EcpProgs
import Verif.Lemmas.EcpSmul
import Verif.Lemmas.EcpTable
import Verif.Lemmas.EcpW
import Verif.Lemmas.FiatCert
import Verif.Lemmas.FiatCheck
import Verif.Lemmas.FiatField
import Verif.Lemmas.GF
import Verif.Lemmas.GFField
import Verif.Lemmas.GFPoly
import Verif.Lemmas.Gost89
import Verif.Lemmas.Gost89Key
import Verif.Lemmas.Gost89Subst
import Verif.Lemmas.Gost94
import Verif.Lemmas.GostCfb
import Verif.Lemmas.GostModes
import Verif.Lemmas.Imit
import Verif.Lemmas.KeyExp
import Verif.Lemmas.KeyWrap
import Verif.Lemmas.KuzBasis
import Verif.Lemmas.KuzCtr
import Verif.Lemmas.KuzField
import Verif.Lemmas.KuzModes
import Verif.Lemmas.KuzStream
import Verif.Lemmas.KuzTables
import Verif.Lemmas.Kuznyechik
import Verif.Lemmas.Loops
import Verif.Lemmas.MagmaCtr
import Verif.Lemmas.Mgm
import Verif.Lemmas.MgmData
import Verif.Lemmas.MgmEvp
import Verif.Lemmas.MgmHeap
import Verif.Lemmas.MgmRun
import Verif.Lemmas.OmacAcpkm
import Verif.Lemmas.Pocklington
import Verif.Lemmas.Primes256
import Verif.Lemmas.Primes512
import Verif.Lemmas.ProvCipher
import Verif.Lemmas.Resources
import Verif.Lemmas.Stream
import Verif.Lemmas.Streebog
import Verif.Lemmas.StreebogBE
import Verif.Lemmas.StreebogCore
import Verif.Lemmas.StreebogTab
import Verif.Lemmas.Tls
import Verif.Props.AcpkmOmac
import Verif.Props.Ameth
import Verif.Props.AoHeap
import Verif.Props.Asn1
import Verif.Props.Asn1Key
import Verif.Props.BigEndian
import Verif.Props.Buffers
import Verif.Props.CipherAsn1
import Verif.Props.CipherTrace
import Verif.Props.Cms
import Verif.Props.CmsKey
import Verif.Props.Derive
import Verif.Props.DeriveMore
import Verif.Props.DigestHeap
import Verif.Props.DigestSign
import Verif.Props.EcEncode
import Verif.Props.EcKeyx
import Verif.Props.EcParams
import Verif.Props.EcSign
import Verif.Props.EcThreads
import Verif.Props.Ecp
import Verif.Props.EcpBounds
import Verif.Props.EcpFields
import Verif.Props.EcpFiles
import Verif.Props.EcpGroup
import Verif.Props.EcpScalar
import Verif.Props.EcpTrace
import Verif.Props.EngLife
import Verif.Props.Engine
import Verif.Props.GF
import Verif.Props.Gost89
import Verif.Props.Gost94
import Verif.Props.GostModes
import Verif.Props.Gostsum
import Verif.Props.Imit
import Verif.Props.KeyExp
import Verif.Props.KeyTransport
import Verif.Props.KeyTransportMore
import Verif.Props.KeyWrap
import Verif.Props.KuzModes
import Verif.Props.Kuznyechik
import Verif.Props.MacPkey
import Verif.Props.MethThreads
import Verif.Props.Mgm
import Verif.Props.MgmCtl
import Verif.Props.MgmForge
import Verif.Props.MgmHeap
import Verif.Props.OmacAcpkm
import Verif.Props.OmacHeap
import Verif.Props.ParamThreads
import Verif.Props.Pkcs8
import Verif.Props.Print
import Verif.Props.PrivBytes
import Verif.Props.ProvAead
import Verif.Props.ProvAsn1
import Verif.Props.ProvCipher
import Verif.Props.ProvDigest
import Verif.Props.ProvLife
import Verif.Props.ProvMac
import Verif.Props.RecvKey
import Verif.Props.Reinit
import Verif.Props.Residue
import Verif.Props.Resources
import Verif.Props.Streebog
import Verif.Props.Tls
import Verif.Props.TlsRecord
import Verif.Props.TlsStream
import Verif.Props.Wrap
