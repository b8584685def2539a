import Verif.PyFloat
import Verif.Np
import Verif.XReal
import Verif.QFloat
import Verif.Model.Misc
import Verif.Lemmas.Lists
import Verif.Lemmas.Misc
import Verif.Props.Misc
import Verif.Model.Common
import Verif.Model.LiquidIce
import Verif.Model.Rain
import Verif.Spec.Rain
import Verif.Lemmas.Rain
import Verif.Props.Rain
import Verif.Props.Rain2
import Verif.Props.Units
import Verif.Model.Dsd
import Verif.Spec.Dsd
import Verif.Props.Dsd
import Verif.Props.Dsd2
import Verif.Props.Dsd3
import Verif.Spec.LiquidIce
import Verif.Lemmas.LiquidIce
import Verif.Props.LiquidIce
import Verif.Props.LiquidIce2
import Verif.Props.Freezing
import Verif.Model.Traps
import Verif.Spec.Traps
import Verif.Props.Traps
import Verif.Model.Tables
import Verif.Model.Fhc
import Verif.Spec.Fhc
import Verif.Lemmas.Fhc
import Verif.Lemmas.FhcX
import Verif.Lemmas.FhcApi
import Verif.Lemmas.Argmax
import Verif.Lemmas.FhcLink
import Verif.Props.FhcTables
import Verif.Props.Fhc
import Verif.Props.Fhc2
import Verif.Props.Fhc3
import Verif.Props.Fhc4
import Verif.Props.Fhc5
import Verif.Props.Fhc6
import Verif.Lemmas.Winter
import Verif.Props.Winter
import Verif.Model.Winter
import Verif.Spec.Winter
import Verif.Lemmas.Melt
import Verif.Props.Melt
import Verif.Props.MeltRhi
import Verif.Props.RunWinter
import Verif.Props.Winter2
import Verif.Props.NanGates
import Verif.Props.MeltPpi
import Verif.Props.MeltSweep
import Verif.Model.Kdp
import Verif.Model.KdpApi
import Verif.Spec.Kdp
import Verif.Lemmas.Kdp
import Verif.Lemmas.KdpNum
import Verif.Lemmas.KdpFir
import Verif.Props.KdpSafe
import Verif.Props.KdpStd
import Verif.Props.KdpFir
import Verif.Props.KdpTotal
import Verif.Props.KdpGate
import Verif.Props.KdpApi
import Verif.Lemmas.KdpLine
import Verif.Props.KdpLine
import Verif.Model.Fundamentals
import Verif.Lemmas.Fund
import Verif.Props.Fund
import Verif.Props.Fund2
import Verif.Model.KdpPy
import Verif.Props.KdpPy
import Verif.Props.Rain3
import Verif.Props.RainDefaults
import Verif.Model.Plot
import Verif.Props.Plot
import Verif.Ieee
import Verif.Binary
import Verif.Lemmas.FhcFloat
import Verif.Props.FhcFloat
import Verif.Lemmas.RainFloat
import Verif.Props.RainFloat
import Verif.Props.KdpStale
import Verif.Props.Freezing2
import Verif.Heap
import Verif.Lemmas.Heap
import Verif.Lemmas.HeapRun
import Verif.Spec.Objects
import Verif.Model.Objects
import Verif.Props.Objects
import Verif.Props.ObjectsRun
import Verif.Props.ObjectsRun2
import Verif.Model.CsvText
import Verif.Model.Csv
import Verif.Spec.Csv
import Verif.Lemmas.CsvElab
import Verif.Lemmas.CsvText
import Verif.Lemmas.Csv
import Verif.Lemmas.CsvRender
import Verif.Props.Csv
import Verif.Props.Csv2
import Verif.Props.Csv3
import Verif.Props.Csv4
import Verif.Props.Csv5
import Verif.Lemmas.KdpAffine
import Verif.Lemmas.KdpOffset
import Verif.Props.KdpUnits
import Verif.Props.KdpLocal
import Verif.Props.Sizes
import Verif.Props.KdpSign
import Verif.Props.Rain4
import Verif.Props.WinterOpt
import Verif.Props.Plot2
import Verif.Props.Pipeline
import Verif.Props.Fund3
import Verif.Props.Csv6
import Verif.Model.Objects2
import Verif.Lemmas.HeapSim
import Verif.Lemmas.HeapFhc
import Verif.Props.Objects2
import Verif.Lemmas.HeapMelt
import Verif.Props.Objects3
import Verif.Props.KdpFir2
import Verif.Model.Masked
import Verif.Props.Masked
import Verif.Props.Traps2
import Verif.Props.Rain5
import Verif.Props.KdpFloat
import Verif.Props.KdpRound
import Verif.Props.KdpError
import Verif.Lemmas.KdpFlag
import Verif.Props.BadValue
import Verif.Model.Objects3
import Verif.Lemmas.HeapKdp
import Verif.Props.ObjectsKdp
import Verif.Props.KdpNoise
import Verif.Model.FirOrder
import Verif.Props.KdpRequest
import Verif.Model.RainMixed
import Verif.Props.RainMixed
import Verif.Props.RainMixed2
import Verif.Model.LiquidIceAny
import Verif.Model.DsdAny
import Verif.Props.LiquidIceAny
import Verif.Props.DsdAny
import Verif.Props.LiquidIceFloat
import Verif.Props.DsdFloat
import Verif.Props.RainAccuracy
import Verif.Props.TropAccuracy
import Verif.Model.RainSizes
import Verif.Props.RainSizes
import Verif.Props.RainSizes2
import Verif.Model.DsdSizes
import Verif.Props.DsdSizes
import Verif.Props.Membership
import Verif.Props.ScoreAccuracy
import Verif.Props.ScoreAccuracy2
import Verif.Props.ScoreAccuracy3
import Verif.Props.ScoreAccuracy4
