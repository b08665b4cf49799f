import Verif.Model.Cli
import Verif.Props.Ints
import Verif.Props.Dates
import Verif.Props.Text
import Verif.Props.Pages
import Verif.Props.Records
import Verif.Props.Walk
import Verif.Props.WalkWitness
import Verif.Props.WalkExact
import Verif.Props.Files
import Verif.Props.Replace
import Verif.Props.Output
import Verif.Props.External
import Verif.Proofs.DictMove
import Verif.Props.Dict
import Verif.Props.RedoFiles
import Verif.Props.RedoLoop
import Verif.Props.RedoUndo
import Verif.Props.RedoSync
import Verif.Props.Logs
import Verif.Props.RedoUpdate
import Verif.Props.RedoSql
import Verif.Props.RedoTruncated
import Verif.Props.RedoCommand
import Verif.Props.DictLoad
import Verif.Props.DictWitness
import Verif.Props.KeyOrder
import Verif.Props.DictExact
import Verif.Props.TableFile
import Verif.Props.DataCommand
import Verif.Props.DataWitness
import Verif.Props.RedoFile
import Verif.Props.RedoWitness
import Verif.Props.Order
import Verif.Props.Terminates
import Verif.Props.UndoPage
import Verif.Props.Reuse
import Verif.Props.DictErrors
import Verif.Props.BadPage
import Verif.Props.DictPages
import Verif.Props.RedoReach
import Verif.Props.Main
import Verif.Props.MainWitness
import Verif.Props.RedoCut
import Verif.Props.DataCut
import Verif.Props.Script
import Verif.Props.RedoEffect
import Verif.Props.RedoEffectIff
import Verif.Props.Program
import Verif.Props.Names
import Verif.Props.RedoChecks
import Verif.Props.TornPages
import Verif.Props.Width
import Verif.Props.Virtual
import Verif.Props.Exact
import Verif.Props.DataExact
import Verif.Props.Fractions
import Verif.Props.PageSize
import Verif.Props.RedoOrder
import Verif.Props.Partitions
import Verif.Spec.Outside
import Verif.Proofs.RedoNames
import Verif.Props.Inject
import Verif.Props.OtherPages
import Verif.Props.RedoDivision
import Verif.Props.RedoNames
import Verif.Props.RedoSelect
import Verif.Props.WriterPages
import Verif.Props.PageOrder
import Verif.Props.PageOrderRows
import Verif.Props.RowsApart
import Verif.Props.Repeat
import Verif.Props.DictClaims
import Verif.Props.SystemPages
import Verif.Props.DictOrder
import Verif.Props.Enum
import Verif.Props.ZeroDates
import Verif.Props.Settings
import Verif.Props.Tables
import Verif.Props.TablesOld
import Verif.Props.Instants
import Verif.Props.AutoIncrement
import Verif.Props.DataValues
import Verif.Props.RedoInject
import Verif.Props.Own
import Verif.Props.Lines
import Verif.Props.LowRecord
import Verif.Spec.Decimal
import Verif.Props.Decimal
import Verif.Props.PrefixKey
import Verif.Props.RedoPrefix
import Verif.Props.Generated
import Verif.Props.FullText
import Verif.Props.RedoPartitions
import Verif.Props.ScriptIff
import Verif.Props.Bits
import Verif.Props.Unpurged
import Verif.Props.Longer
import Verif.Props.OtherTables
import Verif.Props.Charset
import Verif.Props.Json
import Verif.Props.Renamed
import Verif.Props.ForeignKeys
import Verif.Props.OnUpdate
import Verif.Props.Rollback
import Verif.Props.UniqueKeys
import Verif.Props.KeyUpdates
import Verif.Props.RedoSafe
import Verif.Props.OffPageUpdates
import Verif.Props.RenamedLater
import Verif.Props.NoPrimary
import Verif.Props.FreePages
import Verif.Props.SystemOrder
import Verif.Props.Doublewrite
import Verif.Props.Bounds
import Verif.Props.SystemFiles
import Verif.Props.Mistakes
import Verif.Props.Triggers
import Verif.Props.UpdateTriggers
import Verif.Props.Interrupted
import Verif.Props.OneTable
