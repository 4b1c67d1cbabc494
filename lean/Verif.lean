import Verif.Props.Kem
import Verif.Props.Vec
import Verif.Props.Hash
import Verif.Props.Endian
import Verif.Props.Sampling
import Verif.Props.Uniform
import Verif.Props.RoundTrip
import Verif.Props.Failure
import Verif.Props.Binding
import Verif.Props.Budget
import Verif.Props.ConstantTime
import Verif.Props.HashTrace
import Verif.Props.Examples
import Verif.Props.X86
import Verif.Props.X86Arith
import Verif.Props.X86Kem
import Verif.Props.X86ConstantTime
import Verif.Props.A64Arith
import Verif.Props.A64Kem
import Verif.Props.A64Hash
import Verif.Props.Backend
import Verif.Props.BackendHash
import Verif.Props.BackendHashTrace
import Verif.Props.Interop
import Verif.Props.Contracts
import Verif.Props.Kat
import Verif.Props.Acvp
import Verif.Props.Refill
import Verif.Props.TestRandom
import Verif.Props.TestMlkem
import Verif.Props.Bench
import Verif.Props.Scripts
import Verif.Props.Debug
import Verif.Props.Printed
import Verif.Props.Vectors
import Verif.Props.Vectors2
import Verif.Props.Vectors3
import Verif.Props.Vectors4
import Verif.Props.Driver
import Verif.Props.DriverVectors
import Verif.Props.VectorsKat
import Verif.Props.A64RejAsm
import Verif.Props.X86Gp
import Verif.Props.X86GpKem
import Verif.Props.A64GpKem
