import Verif.Props.Sponge
import Verif.Props.KeccakHash
import Verif.Props.SP800185
import Verif.Props.ParallelHash
import Verif.Props.KangarooTwelve
import Verif.Props.Duplex
import Verif.Props.PRG
import Verif.Props.KeccakP
import Verif.Props.Concrete
import Verif.Props.KeccakPOpt
import Verif.Props.KeccakP32
import Verif.Props.Xoodoo
import Verif.Props.Xoodyak
import Verif.Props.Farfalle
import Verif.Props.FarfalleAE
import Verif.Props.FarfalleWbc
import Verif.Props.StrayBits
import Verif.Props.PlSnP
import Verif.Props.ParallelSimd
import Verif.Props.KravatteSimd
import Verif.Props.XoodooSimd
import Verif.Props.XoofffSimd
import Verif.Model.KeccakAvx512
import Verif.Proofs.Avx512Rounds
import Verif.Proofs.Avx512Lanes
import Verif.Proofs.Avx512Fast
import Verif.Proofs.Avx512Leaves
import Verif.Props.KeccakAvx512
import Verif.Model.XoodooPlanes
import Verif.Proofs.XoodooPlanes
import Verif.Proofs.XoodooPlanesFull
import Verif.Proofs.XoodooPlanesXoofff
import Verif.Props.XoodooPlanes
import Verif.Model.KeccakXop
import Verif.Model.KeccakPlane512
import Verif.Proofs.KeccakXop
import Verif.Proofs.KeccakXopBytes
import Verif.Proofs.KeccakPlane512
import Verif.Proofs.KeccakPlane512Bytes
import Verif.Props.KeccakVector
import Verif.Model.Times8Kravatte
import Verif.Proofs.Times8Kravatte
import Verif.Props.KravatteSimd512
import Verif.Props.CompactFIPS202
import Verif.Props.K12Rust
import Verif.Props.PyFIPS202
import Verif.Props.KeccakAvx2
import Verif.Props.KeccakAvx512Asm
import Verif.Props.KeccakSum
import Verif.Props.KeccakX64Asm
import Verif.Props.KeccakArmv8Asm
import Verif.Props.Supercop
import Verif.Props.XoodooArm
import Verif.Props.KeccakArm32
import Verif.Props.KeccakArmv6m
import Verif.Props.KeccakArmv6mU
import Verif.Props.XoodooArmv6m
import Verif.Props.XoodooNeon
import Verif.Props.KeccakNeon
import Verif.Props.Times2Neon
import Verif.Props.XoodooTimes4Neon
import Verif.Props.XoodooTimes4NeonXoofff
import Verif.Props.Avr8
import Verif.Props.Avr8Keccak
import Verif.Props.Avr8Xoodoo
import Verif.Props.Avr8Fast
