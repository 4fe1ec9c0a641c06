import Verif.Lemmas.Agree
import Verif.Lemmas.ByteSex
import Verif.Lemmas.Bytes
import Verif.Lemmas.FileAccess
import Verif.Lemmas.Files
import Verif.Lemmas.Glob
import Verif.Lemmas.GribHandle
import Verif.Lemmas.GribKeys
import Verif.Lemmas.HriFile
import Verif.Lemmas.HriHeader
import Verif.Lemmas.HriIdent
import Verif.Lemmas.HriLoop
import Verif.Lemmas.HriMachine
import Verif.Lemmas.HritFile
import Verif.Lemmas.HritHeader
import Verif.Lemmas.Ini
import Verif.Lemmas.IniHeap
import Verif.Lemmas.IniPacked
import Verif.Lemmas.Layout
import Verif.Lemmas.Machine
import Verif.Lemmas.MsatView
import Verif.Lemmas.NetcdfFile
import Verif.Lemmas.OmtpIds
import Verif.Lemmas.OmtpIdsAccepted
import Verif.Lemmas.OpenMTP
import Verif.Lemmas.OpenMtpHeader
import Verif.Lemmas.Outcome
import Verif.Lemmas.Owners
import Verif.Lemmas.Path
import Verif.Lemmas.PixelSize
import Verif.Lemmas.Prologue
import Verif.Lemmas.PrologueDefects
import Verif.Lemmas.RecordComplete
import Verif.Lemmas.RecordCompleteBig
import Verif.Lemmas.RecordDetermine
import Verif.Lemmas.RecordPrint
import Verif.Lemmas.RecordSound
import Verif.Lemmas.RecordSoundBig
import Verif.Lemmas.RecordTexts
import Verif.Lemmas.RecordUse
import Verif.Lemmas.Redirect
import Verif.Lemmas.Rmtree
import Verif.Lemmas.Split
import Verif.Lemmas.StdString
import Verif.Lemmas.Str
import Verif.Lemmas.Sys
import Verif.Lemmas.Terminal
import Verif.Lemmas.Text
import Verif.Lemmas.Thornsds
import Verif.Model.Basic
import Verif.Model.Boxes
import Verif.Model.Calibrated
import Verif.Model.Computed
import Verif.Model.DataAccess
import Verif.Model.Datetime
import Verif.Model.Drivers
import Verif.Model.Elapsed
import Verif.Model.Facts
import Verif.Model.FileAccess
import Verif.Model.Files
import Verif.Model.Geo
import Verif.Model.Georef
import Verif.Model.GribFile
import Verif.Model.GribHandle
import Verif.Model.GribKeys
import Verif.Model.GribToNetcdf
import Verif.Model.HriCal
import Verif.Model.HriFile
import Verif.Model.HriIdent
import Verif.Model.HriImage
import Verif.Model.HriLabel
import Verif.Model.HriMachine
import Verif.Model.HriTools
import Verif.Model.HritData
import Verif.Model.HritFile
import Verif.Model.HritHeader
import Verif.Model.HritTexts
import Verif.Model.Ini
import Verif.Model.IniDump
import Verif.Model.IniFile
import Verif.Model.IniHeap
import Verif.Model.Layout
import Verif.Model.Locks
import Verif.Model.Machine
import Verif.Model.MsatCommandLine
import Verif.Model.MsatRun
import Verif.Model.MsatTool
import Verif.Model.MsatView
import Verif.Model.Native
import Verif.Model.NativeTools
import Verif.Model.NetcdfAny
import Verif.Model.NetcdfBand
import Verif.Model.NetcdfFile
import Verif.Model.NetcdfToGrib
import Verif.Model.OmtpIds
import Verif.Model.OmtpIdsTools
import Verif.Model.OpenMTP
import Verif.Model.OpenMtpHeader
import Verif.Model.OpenMtpTools
import Verif.Model.Owners
import Verif.Model.PixelSize
import Verif.Model.Progress
import Verif.Model.Prologue
import Verif.Model.Radiance
import Verif.Model.RecordTexts
import Verif.Model.RecordTextsItems
import Verif.Model.Redirect
import Verif.Model.Rmtree
import Verif.Model.Scoped
import Verif.Model.Signals
import Verif.Model.Solar
import Verif.Model.Sources
import Verif.Model.StdString
import Verif.Model.Str
import Verif.Model.Stretch
import Verif.Model.Subprocess
import Verif.Model.Sys
import Verif.Model.Terminal
import Verif.Model.Text
import Verif.Model.Thornsds
import Verif.Model.ThornsdsTools
import Verif.Model.Time
import Verif.Model.TimeTexts
import Verif.Model.XritCommandLine
import Verif.Model.XritDataset
import Verif.Model.XritDump
import Verif.Model.XritFields
import Verif.Model.XritFieldsGrib
import Verif.Model.XritOpen
import Verif.Model.XritToGrib
import Verif.Model.XritToNetcdf
import Verif.Model.XritTools
import Verif.Props.C01_C02
import Verif.Props.C03_C04
import Verif.Props.C05
import Verif.Props.C06
import Verif.Props.C07
import Verif.Props.C08
import Verif.Props.C09_C12
import Verif.Props.C100
import Verif.Props.C101
import Verif.Props.C102
import Verif.Props.C103
import Verif.Props.C104
import Verif.Props.C105
import Verif.Props.C106
import Verif.Props.C107
import Verif.Props.C108
import Verif.Props.C109
import Verif.Props.C110
import Verif.Props.C111
import Verif.Props.C112
import Verif.Props.C113
import Verif.Props.C114
import Verif.Props.C115
import Verif.Props.C116
import Verif.Props.C117
import Verif.Props.C118
import Verif.Props.C119
import Verif.Props.C120
import Verif.Props.C121
import Verif.Props.C122
import Verif.Props.C123
import Verif.Props.C124
import Verif.Props.C125
import Verif.Props.C126
import Verif.Props.C127
import Verif.Props.C128
import Verif.Props.C129
import Verif.Props.C13_C16
import Verif.Props.C17_C20
import Verif.Props.C21
import Verif.Props.C22_C24
import Verif.Props.C25
import Verif.Props.C26
import Verif.Props.C27_C29
import Verif.Props.C30_C31
import Verif.Props.C32_C33
import Verif.Props.C34
import Verif.Props.C35
import Verif.Props.C36_C37
import Verif.Props.C38_C39
import Verif.Props.C40
import Verif.Props.C41
import Verif.Props.C42
import Verif.Props.C43
import Verif.Props.C44
import Verif.Props.C45
import Verif.Props.C46
import Verif.Props.C47
import Verif.Props.C48
import Verif.Props.C49
import Verif.Props.C50_C51
import Verif.Props.C52
import Verif.Props.C53_C55
import Verif.Props.C59_C60
import Verif.Props.C61
import Verif.Props.C62
import Verif.Props.C63
import Verif.Props.C65_C66
import Verif.Props.C71
import Verif.Props.C72
import Verif.Props.C73
import Verif.Props.C74
import Verif.Props.C75
import Verif.Props.C76
import Verif.Props.C77
import Verif.Props.C78
import Verif.Props.C79
import Verif.Props.C80
import Verif.Props.C81
import Verif.Props.C82
import Verif.Props.C83
import Verif.Props.C84
import Verif.Props.C85
import Verif.Props.C86
import Verif.Props.C87
import Verif.Props.C88
import Verif.Props.C89
import Verif.Props.C89Blocks
import Verif.Props.C90
import Verif.Props.C91
import Verif.Props.C92
import Verif.Props.C93
import Verif.Props.C94
import Verif.Props.C95
import Verif.Props.C96
import Verif.Props.C97
import Verif.Props.C98
import Verif.Props.C99
import Verif.Spec.Boxes
import Verif.Spec.Bytes
import Verif.Spec.Calendar
import Verif.Spec.Computed
import Verif.Spec.DataAccess
import Verif.Spec.Datetime
import Verif.Spec.Drivers
import Verif.Spec.FileAccess
import Verif.Spec.Files
import Verif.Spec.Geo
import Verif.Spec.Georef
import Verif.Spec.GribFile
import Verif.Spec.GribHandle
import Verif.Spec.GribKeys
import Verif.Spec.HriCal
import Verif.Spec.HriFile
import Verif.Spec.HriIdent
import Verif.Spec.HriImage
import Verif.Spec.HriInterp
import Verif.Spec.HriKeys
import Verif.Spec.HriLabel
import Verif.Spec.HriMachine
import Verif.Spec.HriTools
import Verif.Spec.HritFile
import Verif.Spec.HritHeader
import Verif.Spec.HritTexts
import Verif.Spec.Ini
import Verif.Spec.IniDump
import Verif.Spec.IniFile
import Verif.Spec.Layout
import Verif.Spec.Locks
import Verif.Spec.MsatCommandLine
import Verif.Spec.MsatRun
import Verif.Spec.MsatTool
import Verif.Spec.MsatView
import Verif.Spec.Native
import Verif.Spec.NativeTools
import Verif.Spec.NetcdfAny
import Verif.Spec.NetcdfBand
import Verif.Spec.NetcdfFile
import Verif.Spec.OmtpIds
import Verif.Spec.OmtpIdsTools
import Verif.Spec.OpenMTP
import Verif.Spec.OpenMtpHeader
import Verif.Spec.OpenMtpTools
import Verif.Spec.Owners
import Verif.Spec.Progress
import Verif.Spec.Prologue
import Verif.Spec.RasterBlock
import Verif.Spec.RecordCodes
import Verif.Spec.RecordTexts
import Verif.Spec.Redirect
import Verif.Spec.Rmtree
import Verif.Spec.Satellites
import Verif.Spec.Seviri
import Verif.Spec.Signals
import Verif.Spec.Solar
import Verif.Spec.Sources
import Verif.Spec.Str
import Verif.Spec.Stretch
import Verif.Spec.Subprocess
import Verif.Spec.Sys
import Verif.Spec.Terminal
import Verif.Spec.TextNumber
import Verif.Spec.Thornsds
import Verif.Spec.TimeTexts
import Verif.Spec.XritCommandLine
import Verif.Spec.XritDump
import Verif.Spec.XritOpen
import Verif.Spec.XritTools
