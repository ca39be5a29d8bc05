import Verif.Lemmas.Bounded
import Verif.Lemmas.Cut
import Verif.Lemmas.Energy
import Verif.Lemmas.ExampleHouse
import Verif.Lemmas.Except
import Verif.Lemmas.Flat
import Verif.Lemmas.Forced
import Verif.Lemmas.Frequency
import Verif.Lemmas.Glazing
import Verif.Lemmas.GlazingPos
import Verif.Lemmas.House
import Verif.Lemmas.Kaluza
import Verif.Lemmas.Load
import Verif.Lemmas.MMatrix
import Verif.Lemmas.Miranda
import Verif.Lemmas.Panes
import Verif.Lemmas.Pieces
import Verif.Lemmas.Renumber
import Verif.Lemmas.Response
import Verif.Lemmas.Run
import Verif.Lemmas.Scale
import Verif.Lemmas.Step
import Verif.Lemmas.Storage
import Verif.Lemmas.Tick
import Verif.Lemmas.WellFormed
import Verif.Model.AnyWidth
import Verif.Model.Boundary
import Verif.Model.ConvLevels
import Verif.Model.ConvRooms
import Verif.Model.Convergence
import Verif.Model.Core
import Verif.Model.Ees
import Verif.Model.EesDict
import Verif.Model.Files
import Verif.Model.Glazing
import Verif.Model.Ground
import Verif.Model.HeatExchanger
import Verif.Model.Ieee
import Verif.Model.Indices
import Verif.Model.Infiltration
import Verif.Model.Initializer
import Verif.Model.InputJson
import Verif.Model.Iso7730
import Verif.Model.Log
import Verif.Model.Lv4Parts
import Verif.Model.ModelHouse
import Verif.Model.NextCondition
import Verif.Model.Occupants
import Verif.Model.OperationMode
import Verif.Model.OtTargetPmv
import Verif.Model.Panes
import Verif.Model.Period
import Verif.Model.PreCalc
import Verif.Model.Processes
import Verif.Model.Psychrometrics
import Verif.Model.Py
import Verif.Model.PyVal
import Verif.Model.Rac
import Verif.Model.Reader
import Verif.Model.Record
import Verif.Model.ResponseFactor
import Verif.Model.Round
import Verif.Model.Schedule
import Verif.Model.Sequence
import Verif.Model.ShapeFactor
import Verif.Model.Sheets
import Verif.Model.ShippedSchedule
import Verif.Model.Solar
import Verif.Model.Summarize
import Verif.Model.Sunshade
import Verif.Model.Tables
import Verif.Model.UPsi
import Verif.Model.Weather
import Verif.Model.Whole
import Verif.Props.AirCycle
import Verif.Props.Airing
import Verif.Props.AiringStore
import Verif.Props.Alternating
import Verif.Props.AnyWidth
import Verif.Props.Balance
import Verif.Props.Blend
import Verif.Props.Causality
import Verif.Props.ColdHouse
import Verif.Props.ColumnOrder
import Verif.Props.Comfort
import Verif.Props.Completes
import Verif.Props.ConvInner
import Verif.Props.ConvRooms
import Verif.Props.ConvRoundTrip
import Verif.Props.ConvSplit
import Verif.Props.ConvUExport
import Verif.Props.Convergence
import Verif.Props.Cycle
import Verif.Props.Daily
import Verif.Props.Damper
import Verif.Props.DataNear
import Verif.Props.DataNearAir
import Verif.Props.DataNearHumid
import Verif.Props.DeclaredU
import Verif.Props.Descriptive
import Verif.Props.Dimmed
import Verif.Props.Duplex
import Verif.Props.Entries
import Verif.Props.EnvelopeRest
import Verif.Props.Equilibrium
import Verif.Props.ExportRead
import Verif.Props.Fade
import Verif.Props.FadeHumid
import Verif.Props.FadeStore
import Verif.Props.Files
import Verif.Props.FilesMissing
import Verif.Props.Flat
import Verif.Props.Glazing
import Verif.Props.GlazingEps
import Verif.Props.GlazingExists
import Verif.Props.GlazingFilms
import Verif.Props.GlazingU
import Verif.Props.History
import Verif.Props.Hourly
import Verif.Props.Household
import Verif.Props.Humid
import Verif.Props.Humidify
import Verif.Props.Idle
import Verif.Props.Ieee
import Verif.Props.Indices
import Verif.Props.Inexact
import Verif.Props.InexactAir
import Verif.Props.Initializer
import Verif.Props.Insulated
import Verif.Props.Latch
import Verif.Props.LayerPieces
import Verif.Props.LeakAiring
import Verif.Props.LeakCold
import Verif.Props.Load
import Verif.Props.LoadLogged
import Verif.Props.LoggedSteps
import Verif.Props.Lv4Parts
import Verif.Props.MergedInput
import Verif.Props.Milder
import Verif.Props.Mode
import Verif.Props.ModeLogged
import Verif.Props.ModelHouse
import Verif.Props.Moisture
import Verif.Props.OnePart
import Verif.Props.OneRoom
import Verif.Props.OpenWindow
import Verif.Props.Panes
import Verif.Props.Partner
import Verif.Props.PassiveParts
import Verif.Props.Period
import Verif.Props.Pieces
import Verif.Props.Pipeline
import Verif.Props.Pmv
import Verif.Props.Prefix
import Verif.Props.Processes
import Verif.Props.Program
import Verif.Props.ProgramSteps
import Verif.Props.Psychro
import Verif.Props.Rac
import Verif.Props.RadiantInputs
import Verif.Props.RadiantRooms
import Verif.Props.Range
import Verif.Props.RangeStore
import Verif.Props.Reader
import Verif.Props.Relaxing
import Verif.Props.Remarks
import Verif.Props.Renumber
import Verif.Props.Response
import Verif.Props.ResultDigest
import Verif.Props.ResultUnits
import Verif.Props.Results
import Verif.Props.RoomExchange
import Verif.Props.Round
import Verif.Props.Runs
import Verif.Props.Scale
import Verif.Props.ScaleProgram
import Verif.Props.Schedule
import Verif.Props.ShapeFactor
import Verif.Props.Sheets
import Verif.Props.SheetsDir
import Verif.Props.Shipped
import Verif.Props.ShippedHouse
import Verif.Props.SlabAired
import Verif.Props.Solar
import Verif.Props.Steady
import Verif.Props.SteadyHeated
import Verif.Props.SteadyHouse
import Verif.Props.StoringRoom
import Verif.Props.Stricter
import Verif.Props.Summarize
import Verif.Props.Sun
import Verif.Props.Sunshade
import Verif.Props.Supplied
import Verif.Props.Symmetric
import Verif.Props.Tables
import Verif.Props.Threshold
import Verif.Props.Tower
import Verif.Props.TwoRests
import Verif.Props.UPsi
import Verif.Props.Unheated
import Verif.Props.Units
import Verif.Props.WarmBehind
import Verif.Props.Warmer
import Verif.Props.WarmerSheet
import Verif.Props.Weather
import Verif.Props.WeatherNear
import Verif.Props.WeatherTable
import Verif.Props.Whole
import Verif.Props.Window
import Verif.Props.WindowInput
import Verif.Props.Words
import Verif.Props.Written
import Verif.Spec.Absorbs
import Verif.Spec.Airing
import Verif.Spec.Balance
import Verif.Spec.Blend
import Verif.Spec.Comfort
import Verif.Spec.Cycle
import Verif.Spec.Daily
import Verif.Spec.Damper
import Verif.Spec.DataNear
import Verif.Spec.Dimmed
import Verif.Spec.Entries
import Verif.Spec.Envelope
import Verif.Spec.Equilibrium
import Verif.Spec.Executed
import Verif.Spec.ExportRead
import Verif.Spec.Fade
import Verif.Spec.FadeHumid
import Verif.Spec.Files
import Verif.Spec.Flat
import Verif.Spec.Glazing
import Verif.Spec.History
import Verif.Spec.Hourly
import Verif.Spec.HouseAir
import Verif.Spec.Household
import Verif.Spec.Humid
import Verif.Spec.Idle
import Verif.Spec.Indices
import Verif.Spec.Inexact
import Verif.Spec.Infiltration
import Verif.Spec.Initializer
import Verif.Spec.InnerParts
import Verif.Spec.Insulated
import Verif.Spec.Load
import Verif.Spec.Lv4Parts
import Verif.Spec.Milder
import Verif.Spec.Mode
import Verif.Spec.ModelHouse
import Verif.Spec.Moisture
import Verif.Spec.Occupant
import Verif.Spec.Panes
import Verif.Spec.PartExport
import Verif.Spec.Passive
import Verif.Spec.Period
import Verif.Spec.Pieces
import Verif.Spec.Pipeline
import Verif.Spec.Radiation
import Verif.Spec.Range
import Verif.Spec.Reader
import Verif.Spec.Relaxing
import Verif.Spec.Renumber
import Verif.Spec.Response
import Verif.Spec.Results
import Verif.Spec.RoomSplit
import Verif.Spec.RoomVote
import Verif.Spec.Round
import Verif.Spec.Run
import Verif.Spec.Scale
import Verif.Spec.Schedule
import Verif.Spec.Shade
import Verif.Spec.Sheets
import Verif.Spec.Shipped
import Verif.Spec.Solar
import Verif.Spec.Stricter
import Verif.Spec.Summarize
import Verif.Spec.Supplied
import Verif.Spec.Symmetric
import Verif.Spec.Unheated
import Verif.Spec.Units
import Verif.Spec.WarmBehind
import Verif.Spec.Warmer
import Verif.Spec.Weather
import Verif.Spec.WeatherNear
import Verif.Spec.WellFormed
import Verif.Spec.Whole
import Verif.Spec.Words
