import Verif.Props.Units
import Verif.Props.AtmosHelpers
import Verif.Props.ThrustFactors
import Verif.Props.ISA
import Verif.Props.Atmosphere
import Verif.Props.Tools
import Verif.Props.Runway
import Verif.Props.Profile
import Verif.Props.MilHdbk
import Verif.Props.Concept
import Verif.Props.Concept2
import Verif.Props.Concept3
import Verif.Props.Aero
import Verif.Props.Aero2
import Verif.Props.Aero3
import Verif.Props.Constraint
import Verif.Props.Constraint2
import Verif.Props.Constraint3
import Verif.Props.Constraint4
import Verif.Props.Constraint5
import Verif.Props.Constraint6
import Verif.Props.Sensitivity
import Verif.Props.Sensitivity2
import Verif.Props.Airworthiness
import Verif.Props.Airworthiness2
import Verif.Props.Airworthiness3
import Verif.Props.Propulsion
import Verif.Props.Propulsion2
import Verif.Props.Propulsion3
import Verif.Props.Propulsion4
import Verif.Props.Propeller
import Verif.Props.Propeller2
import Verif.Props.Propeller3
import Verif.Model.SensPlot
import Verif.Lemmas.SensPlot
import Verif.Props.SensPlot
import Verif.Props.SensPlot2
import Verif.Props.Suction
import Verif.Props.Balance
import Verif.Props.Hydrostatic
import Verif.Props.Frame
import Verif.Props.Trends
import Verif.Props.TurnTrend
import Verif.Props.HotHigh
import Verif.Props.AtmosArrays
import Verif.Props.SlopeLimits
import Verif.Props.SuperSlope
import Verif.Props.Calibrated
import Verif.Props.DeckPlots
import Verif.Props.PanelPlot
import Verif.Props.EnvelopePlot
import Verif.Props.EnvelopePlot2
import Verif.Props.DeckPlots2
import Verif.Props.DeckFiles
import Verif.Props.DeckList
import Verif.Props.SensShow
import Verif.Props.Stored
import Verif.Props.DeckCorr
import Verif.Props.SeaLevelMap
import Verif.Props.TurbopropTable
import Verif.Props.ErrorKinds
import Verif.Props.OswaldMach
import Verif.Props.DensityAlt
import Verif.Props.Interior
import Verif.Props.Documented
import Verif.Props.Documented2
import Verif.Props.Documented3
import Verif.Props.Documented4
import Verif.Props.RunwayData
import Verif.Props.UnitsFloat
import Verif.Props.ConstraintFloat
import Verif.Props.IsaFloat
import Verif.Props.TestSuite
import Verif.Props.TestSuite2
import Verif.Model.EngineData
import Verif.Lemmas.EngineData
import Verif.Lemmas.PolyCheck
import Verif.Props.EngineDecks
import Verif.Props.EngineTables
import Verif.Props.EngineData
import Verif.Props.EnginePoly
import Verif.Lemmas.ReadmeNum
import Verif.Props.Readme
import Verif.Props.Readme2
import Verif.Props.OffDay
import Verif.Model.Checked
import Verif.Lemmas.Checked
import Verif.Props.Checked
import Verif.Props.Checked2
import Verif.Props.Checked3
import Verif.Props.Checked4
import Verif.Props.Checked5
import Verif.Props.Continuity
import Verif.Props.Continuity2
import Verif.Props.Continuity3
import Verif.Model.Shared
import Verif.Props.Shared
import Verif.Props.Shared2
import Verif.Props.Covered
import Verif.Props.GridMin
import Verif.Props.MilHydro
import Verif.Props.EngineRows
import Verif.Props.CsFloat
import Verif.Props.Ieee
import Verif.Props.InputError
import Verif.Props.ThrustFloat
import Verif.Props.PropArg
import Verif.Props.Warnings
import Verif.Props.VnWarnings
import Verif.Props.DeckWarnings
import Verif.Props.SensWarnings
import Verif.Props.DeckReq
import Verif.Props.ShippedReq
import Verif.Props.AeroFloat
import Verif.Props.AirspeedFloat
import Verif.Props.SpeedFloat
import Verif.Props.WindFloat
import Verif.Props.AltFloat
import Verif.Props.Cases
import Verif.Props.PistonFloat
import Verif.Props.PowerFloat
