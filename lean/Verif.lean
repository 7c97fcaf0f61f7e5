import Verif.Lemmas.Agree
import Verif.Lemmas.AgreeBlocks
import Verif.Lemmas.AgreeContinuous
import Verif.Lemmas.AgreeDist
import Verif.Lemmas.AgreeEnergy
import Verif.Lemmas.AgreeOther
import Verif.Lemmas.AgreePhoto
import Verif.Lemmas.AgreeTables
import Verif.Lemmas.Angular
import Verif.Lemmas.Arrays
import Verif.Lemmas.Columns
import Verif.Lemmas.Continuous
import Verif.Lemmas.ContinuousBlocks
import Verif.Lemmas.ContinuousData
import Verif.Lemmas.ContinuousMade
import Verif.Lemmas.ContinuousMarks
import Verif.Lemmas.ContinuousOptional
import Verif.Lemmas.ContinuousPrincipal
import Verif.Lemmas.ContinuousRead
import Verif.Lemmas.ContinuousSecondary
import Verif.Lemmas.ContinuousTable
import Verif.Lemmas.ContinuousWords
import Verif.Lemmas.Core
import Verif.Lemmas.Cut
import Verif.Lemmas.CutTable
import Verif.Lemmas.Decimal
import Verif.Lemmas.DecimalRound
import Verif.Lemmas.DecimalText
import Verif.Lemmas.Distribution
import Verif.Lemmas.EnergyBlock
import Verif.Lemmas.EnergyData
import Verif.Lemmas.Lines
import Verif.Lemmas.Local
import Verif.Lemmas.Located
import Verif.Lemmas.Lookup
import Verif.Lemmas.Memory
import Verif.Lemmas.Moved
import Verif.Lemmas.MovedPhoto
import Verif.Lemmas.Natural
import Verif.Lemmas.NaturalAttr
import Verif.Lemmas.NaturalBlocks
import Verif.Lemmas.NaturalContent
import Verif.Lemmas.NaturalDist
import Verif.Lemmas.NaturalEnergy
import Verif.Lemmas.NaturalTables
import Verif.Lemmas.Photoatomic
import Verif.Lemmas.Photonuclear
import Verif.Lemmas.Release
import Verif.Lemmas.ReleaseNever
import Verif.Lemmas.ReleaseTac
import Verif.Lemmas.Sort
import Verif.Lemmas.TabDist
import Verif.Lemmas.TableText
import Verif.Lemmas.Text
import Verif.Lemmas.ThermalTable
import Verif.Lemmas.Words
import Verif.Lemmas.Xsdir
import Verif.Lemmas.XsdirFile
import Verif.Model.Angular
import Verif.Model.ArrayBlocks
import Verif.Model.Arrays
import Verif.Model.Continuous
import Verif.Model.Core
import Verif.Model.Decimal
import Verif.Model.Distribution
import Verif.Model.Dosimetry
import Verif.Model.EnergyBlock
import Verif.Model.EnergyData
import Verif.Model.Files
import Verif.Model.Fission
import Verif.Model.FormatBlocks
import Verif.Model.Header
import Verif.Model.Ident
import Verif.Model.Located
import Verif.Model.Lookup
import Verif.Model.Members
import Verif.Model.Memory
import Verif.Model.Photoatomic
import Verif.Model.Photonuclear
import Verif.Model.PyLife
import Verif.Model.Python
import Verif.Model.Release
import Verif.Model.ReleaseBuild
import Verif.Model.Secondary
import Verif.Model.Sort
import Verif.Model.Stream
import Verif.Model.TabDist
import Verif.Model.TableData
import Verif.Model.TableText
import Verif.Model.Text
import Verif.Model.Thermal
import Verif.Model.ThermalTable
import Verif.Model.Typed
import Verif.Model.Xsdir
import Verif.Model.XsdirEntry
import Verif.Props.AgreeSpec
import Verif.Props.C01
import Verif.Props.C02
import Verif.Props.C03
import Verif.Props.C04
import Verif.Props.C05
import Verif.Props.C06
import Verif.Props.C07
import Verif.Props.C08
import Verif.Props.C09
import Verif.Props.C10
import Verif.Props.C11
import Verif.Props.C12
import Verif.Props.C13
import Verif.Props.C14
import Verif.Props.C15
import Verif.Props.C16
import Verif.Props.C17
import Verif.Props.C18
import Verif.Props.C19
import Verif.Props.C20
import Verif.Props.C21
import Verif.Props.C22
import Verif.Props.C23
import Verif.Props.C24
import Verif.Props.C25
import Verif.Props.C26
import Verif.Props.C27
import Verif.Props.C28
import Verif.Props.C28Cases
import Verif.Props.C29
import Verif.Props.C30
import Verif.Props.C30Tables
import Verif.Props.C31
import Verif.Props.C32
import Verif.Props.C33
import Verif.Props.C34
import Verif.Props.C35
import Verif.Props.C36
import Verif.Props.C37
import Verif.Props.C38
import Verif.Props.C39
import Verif.Props.C40
import Verif.Props.C41
import Verif.Props.C42
import Verif.Props.C43
import Verif.Props.C44
import Verif.Props.C45
import Verif.Props.C46
import Verif.Props.C47
import Verif.Props.C48
import Verif.Props.C49
import Verif.Props.C50
import Verif.Props.C51
import Verif.Props.C52
import Verif.Props.C53
import Verif.Props.C54
import Verif.Props.C54Tables
import Verif.Props.C55
import Verif.Props.C56
import Verif.Props.C56Laws
import Verif.Props.C56Unchecked
import Verif.Props.C57
import Verif.Props.C58
import Verif.Props.C59
import Verif.Props.C60
import Verif.Props.C60Case
import Verif.Props.C60Continuous
import Verif.Props.C60Photonuclear
import Verif.Props.C61
import Verif.Props.C62
import Verif.Props.C63
import Verif.Props.C63Numbers
import Verif.Props.C64
import Verif.Props.C65
import Verif.Props.C66
import Verif.Props.C66Tables
import Verif.Props.C67
import Verif.Props.C68
import Verif.Props.C69
import Verif.Props.C70
import Verif.Props.C70Functions
import Verif.Props.C71
import Verif.Props.C72
import Verif.Props.C73
import Verif.Props.C74
import Verif.Props.C75
import Verif.Props.C76
import Verif.Props.CESpec
import Verif.Props.CutSpec
import Verif.Props.DistSpec
import Verif.Props.LineSpec
import Verif.Props.LocalSpec
import Verif.Props.MapSpec
import Verif.Props.PlaceSpec
import Verif.Props.ReleaseSpec
import Verif.Props.TableSpec
import Verif.Props.XsdirSpec
