import Verif.Lemmas.Anchored
import Verif.Lemmas.AtomRe
import Verif.Lemmas.AtomTables
import Verif.Lemmas.AtomVec
import Verif.Lemmas.BandTable
import Verif.Lemmas.Bands
import Verif.Lemmas.Berry
import Verif.Lemmas.BinFiles
import Verif.Lemmas.BlankRe
import Verif.Lemmas.BlockFile
import Verif.Lemmas.Blocks
import Verif.Lemmas.Bytes
import Verif.Lemmas.CastepBanner
import Verif.Lemmas.CastepDoc
import Verif.Lemmas.CastepFile
import Verif.Lemmas.CastepFits
import Verif.Lemmas.CastepFitted
import Verif.Lemmas.CastepFrame
import Verif.Lemmas.CastepLoop
import Verif.Lemmas.CastepMatrix
import Verif.Lemmas.CastepPhonon
import Verif.Lemmas.CastepRows
import Verif.Lemmas.CastepRuns
import Verif.Lemmas.CastepSame
import Verif.Lemmas.CastepStep
import Verif.Lemmas.CastepTwo
import Verif.Lemmas.CastepWhole
import Verif.Lemmas.CellBlocks
import Verif.Lemmas.CellParam
import Verif.Lemmas.ColonSep
import Verif.Lemmas.Comments
import Verif.Lemmas.Constraints
import Verif.Lemmas.Coord
import Verif.Lemmas.Data
import Verif.Lemmas.DeltaScf
import Verif.Lemmas.DevelCode
import Verif.Lemmas.Dftd
import Verif.Lemmas.Dict
import Verif.Lemmas.Efield
import Verif.Lemmas.Elastic
import Verif.Lemmas.ElasticProps
import Verif.Lemmas.Epme
import Verif.Lemmas.ErrFile
import Verif.Lemmas.Exact
import Verif.Lemmas.Fields
import Verif.Lemmas.FileWrapper
import Verif.Lemmas.FinalConfig
import Verif.Lemmas.Find
import Verif.Lemmas.FloatOps
import Verif.Lemmas.Fortran
import Verif.Lemmas.Gathered
import Verif.Lemmas.GenBlock
import Verif.Lemmas.GenFiles
import Verif.Lemmas.GeomDoc
import Verif.Lemmas.GeomTable
import Verif.Lemmas.Header
import Verif.Lemmas.IntFloat
import Verif.Lemmas.IonCons
import Verif.Lemmas.Iter
import Verif.Lemmas.Labelled
import Verif.Lemmas.LineTables
import Verif.Lemmas.LitRe
import Verif.Lemmas.Magres
import Verif.Lemmas.Match
import Verif.Lemmas.MdAccess
import Verif.Lemmas.MdData
import Verif.Lemmas.MdEager
import Verif.Lemmas.MdFile
import Verif.Lemmas.MdFrame
import Verif.Lemmas.MdFrameSays
import Verif.Lemmas.Memory
import Verif.Lemmas.Mulliken
import Verif.Lemmas.NatStr
import Verif.Lemmas.NmrTables
import Verif.Lemmas.NonLin
import Verif.Lemmas.Num
import Verif.Lemmas.NumberRe
import Verif.Lemmas.PairParams
import Verif.Lemmas.Params
import Verif.Lemmas.Path
import Verif.Lemmas.Phonon
import Verif.Lemmas.PhononDos
import Verif.Lemmas.Phrase
import Verif.Lemmas.PsEnergy
import Verif.Lemmas.Pspot
import Verif.Lemmas.PspotAll
import Verif.Lemmas.PspotReport
import Verif.Lemmas.PspotStr
import Verif.Lemmas.ReSim
import Verif.Lemmas.Regex
import Verif.Lemmas.ResOk
import Verif.Lemmas.Row
import Verif.Lemmas.Scf
import Verif.Lemmas.Setting
import Verif.Lemmas.SettingVal
import Verif.Lemmas.Slice
import Verif.Lemmas.SmallBlocks
import Verif.Lemmas.SpecPot
import Verif.Lemmas.SpecProps
import Verif.Lemmas.Str
import Verif.Lemmas.StressTitle
import Verif.Lemmas.Strings
import Verif.Lemmas.Symmetry
import Verif.Lemmas.Tables
import Verif.Lemmas.Tddft
import Verif.Lemmas.Title
import Verif.Lemmas.TrailWs
import Verif.Lemmas.Ts
import Verif.Lemmas.TypeConv
import Verif.Lemmas.UnitCell
import Verif.Lemmas.Unpack
import Verif.Lemmas.Words
import Verif.Lemmas.XcDef
import Verif.Lemmas.XrdSf
import Verif.Model.BinFiles
import Verif.Model.Castep
import Verif.Model.CastepBlocks
import Verif.Model.CastepTables
import Verif.Model.CellParam
import Verif.Model.Cli
import Verif.Model.FileWrapper
import Verif.Model.FortranBin
import Verif.Model.GenFiles
import Verif.Model.Header
import Verif.Model.Magres
import Verif.Model.MdGeom
import Verif.Model.Res
import Verif.Model.Spectra
import Verif.Model.Tables
import Verif.Model.TypeConv
import Verif.Model.Utility
import Verif.Props.AtomTables
import Verif.Props.AtomVec
import Verif.Props.BandTable
import Verif.Props.Bands
import Verif.Props.Berry
import Verif.Props.BinFiles
import Verif.Props.CastepDoc
import Verif.Props.CastepFiles
import Verif.Props.CastepFilters
import Verif.Props.CastepMatrix
import Verif.Props.CastepPhonon
import Verif.Props.CastepRows
import Verif.Props.CastepRuns
import Verif.Props.CellBlocks
import Verif.Props.CellParam
import Verif.Props.Cli
import Verif.Props.CliFiles
import Verif.Props.ColonSep
import Verif.Props.Constraints
import Verif.Props.Data
import Verif.Props.DeltaScf
import Verif.Props.DevelCode
import Verif.Props.Dftd
import Verif.Props.Efield
import Verif.Props.Elastic
import Verif.Props.ElasticProps
import Verif.Props.Epme
import Verif.Props.FileWrapper
import Verif.Props.FinalConfig
import Verif.Props.Fortran
import Verif.Props.Functional
import Verif.Props.GenBlock
import Verif.Props.GenFiles
import Verif.Props.GeomSteps
import Verif.Props.GeomTable
import Verif.Props.Grids
import Verif.Props.Header
import Verif.Props.IonCons
import Verif.Props.LineTables
import Verif.Props.Magres
import Verif.Props.MdFrame
import Verif.Props.MdGeom
import Verif.Props.MdSteps
import Verif.Props.Memory
import Verif.Props.Mulliken
import Verif.Props.NmrTables
import Verif.Props.NonLin
import Verif.Props.Numbers
import Verif.Props.PairParams
import Verif.Props.Params
import Verif.Props.Phonon
import Verif.Props.PhononDos
import Verif.Props.PsEnergy
import Verif.Props.Pspot
import Verif.Props.PspotReport
import Verif.Props.Scf
import Verif.Props.Setting
import Verif.Props.SmallBlocks
import Verif.Props.SmallTables
import Verif.Props.SpecPot
import Verif.Props.SpecProps
import Verif.Props.Symmetry
import Verif.Props.Tddft
import Verif.Props.Ts
import Verif.Props.UnitCell
import Verif.Props.Utility
import Verif.Props.XrdSf
import Verif.Py.Basic
import Verif.Py.Bytes
import Verif.Py.File
import Verif.Py.Float
import Verif.Py.FloatOps
import Verif.Py.Num
import Verif.Py.Path
import Verif.Py.Regex
import Verif.Py.Text
import Verif.Py.Value
import Verif.Spec.Atom
import Verif.Spec.AtomTables
import Verif.Spec.AtomVec
import Verif.Spec.BandTable
import Verif.Spec.Bands
import Verif.Spec.Berry
import Verif.Spec.BinFiles
import Verif.Spec.BlockFile
import Verif.Spec.Castep
import Verif.Spec.CastepDoc
import Verif.Spec.CastepMatrix
import Verif.Spec.CastepRows
import Verif.Spec.CastepTable
import Verif.Spec.CellFile
import Verif.Spec.Cli
import Verif.Spec.ColonSep
import Verif.Spec.Constraints
import Verif.Spec.Convert
import Verif.Spec.Coord
import Verif.Spec.Data
import Verif.Spec.DeltaScf
import Verif.Spec.DevelCode
import Verif.Spec.Dftd
import Verif.Spec.Elastic
import Verif.Spec.ElasticProps
import Verif.Spec.Epme
import Verif.Spec.ErrFile
import Verif.Spec.FinalConfig
import Verif.Spec.Fortran
import Verif.Spec.GenBlock
import Verif.Spec.GenFiles
import Verif.Spec.GeomTable
import Verif.Spec.Header
import Verif.Spec.IonCons
import Verif.Spec.Iter
import Verif.Spec.Labelled
import Verif.Spec.LineTables
import Verif.Spec.Lines
import Verif.Spec.Magres
import Verif.Spec.MdFile
import Verif.Spec.MdFrame
import Verif.Spec.Mulliken
import Verif.Spec.NmrTables
import Verif.Spec.NonLin
import Verif.Spec.Number
import Verif.Spec.PairParams
import Verif.Spec.Params
import Verif.Spec.Phonon
import Verif.Spec.PhononDos
import Verif.Spec.PsEnergy
import Verif.Spec.Pspot
import Verif.Spec.PspotReport
import Verif.Spec.Scf
import Verif.Spec.Setting
import Verif.Spec.SmallBlocks
import Verif.Spec.SpecPot
import Verif.Spec.SpecProps
import Verif.Spec.Symmetry
import Verif.Spec.Table
import Verif.Spec.Tddft
import Verif.Spec.Text
import Verif.Spec.Ts
import Verif.Spec.UnitCell
import Verif.Spec.XcDef
import Verif.Spec.XrdSf
