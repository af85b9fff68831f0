import Verif.Model.Basic
import Verif.Model.Util
import Verif.Model.Nsm
import Verif.Spec.Page
import Verif.Proof.Util
import Verif.Proof.Nsm
import Verif.Proof.NsmDamaged
import Verif.Proof.NsmOutcome
import Verif.Proof.NsmFull
import Verif.Props.Util
import Verif.Props.Page
import Verif.Model.Text
import Verif.Model.Types
import Verif.Spec.Types
import Verif.Proof.Text
import Verif.Proof.Types
import Verif.Props.Types
import Verif.Model.DataSource
import Verif.Model.Marshaller
import Verif.Spec.Value
import Verif.Proof.Bits
import Verif.Proof.DataSource
import Verif.Proof.Sort
import Verif.Proof.Layout
import Verif.Proof.Layout2
import Verif.Proof.Unroll
import Verif.Proof.Fields
import Verif.Proof.Codec
import Verif.Proof.Codec2
import Verif.Spec.Layout
import Verif.Proof.Codec3
import Verif.Props.DataSource
import Verif.Proof.Locate
import Verif.Proof.Nested
import Verif.Proof.Readable
import Verif.Props.Marshaller
import Verif.Props.Inactive
import Verif.Props.TypeParser
import Verif.Model.Utf8
import Verif.Model.JsonTokenizer
import Verif.Model.JsonDecoder
import Verif.Model.JsonEncoder
import Verif.Spec.Json
import Verif.Spec.JsonText
import Verif.Proof.JsonBase
import Verif.Proof.JsonDecoder
import Verif.Proof.Utf8
import Verif.Proof.JsonTokenizer
import Verif.Proof.JsonEncoder
import Verif.Proof.JsonDocument
import Verif.Proof.JsonExact
import Verif.Spec.JsonPanic
import Verif.Proof.JsonPanic
import Verif.Proof.JsonSize
import Verif.Props.JsonText
import Verif.Props.Json
import Verif.Model.Volume
import Verif.Spec.Volume
import Verif.Proof.Volume
import Verif.Props.Volume
import Verif.Model.BufferPool
import Verif.Spec.BufferList
import Verif.Spec.BufferPool
import Verif.Proof.BufferList
import Verif.Proof.BufferPool
import Verif.Proof.BufferNew
import Verif.Proof.BufferRuns
import Verif.Proof.BufferFresh
import Verif.Proof.BufferGentle
import Verif.Props.BufferPool
import Verif.Model.SqlNames
import Verif.Model.SqlSchema
import Verif.Model.SqlAst
import Verif.Model.SqlTyping
import Verif.Spec.Sql
import Verif.Proof.SqlNames
import Verif.Proof.SqlSchema
import Verif.Proof.SqlStatements
import Verif.Proof.SqlColumns
import Verif.Proof.SqlRows
import Verif.Props.SqlNames
import Verif.Props.SqlStatements
import Verif.Spec.SqlSafe
import Verif.Spec.SqlSpelling
import Verif.Proof.SqlSafe
import Verif.Proof.SqlCase
import Verif.Proof.SqlSpelling
import Verif.Props.SqlExpr
import Verif.Props.SqlSpelling
import Verif.Spec.SqlEval
import Verif.Spec.SqlSound
import Verif.Spec.SqlRun
import Verif.Spec.SqlScope
import Verif.Proof.SqlSound
import Verif.Proof.SqlRun
import Verif.Proof.SqlScope
import Verif.Proof.SqlQueries
import Verif.Spec.SqlUnify
import Verif.Proof.SqlUnify
import Verif.Props.SqlSound
import Verif.Props.SqlQueries
import Verif.Model.SqlLexer
import Verif.Model.SqlParserTables
import Verif.Model.SqlParserActions
import Verif.Model.SqlParser
import Verif.Spec.SqlGrammar
import Verif.Spec.SqlWords
import Verif.Proof.SqlLrData
import Verif.Proof.SqlLrCheck
import Verif.Proof.SqlLrFacts
import Verif.Proof.SqlLrComplete
import Verif.Proof.SqlGrammarDer
import Verif.Proof.SqlGrammarSem
import Verif.Proof.SqlLrSound
import Verif.Proof.SqlLrViable
import Verif.Proof.SqlWords
import Verif.Proof.SqlParse
import Verif.Proof.SqlExpected
import Verif.Props.SqlParser
import Verif.Spec.SqlRespelt
import Verif.Spec.SqlRules
import Verif.Proof.SqlRespelt
import Verif.Proof.SqlWordsSafe
import Verif.Proof.SqlLayout
import Verif.Proof.SqlMapId
import Verif.Proof.SqlRules
import Verif.Props.SqlText
import Verif.Spec.SqlPanic
import Verif.Proof.SqlPanic
import Verif.Proof.SqlPanicText
import Verif.Props.SqlRules
import Verif.Spec.SqlWriting
import Verif.Proof.SqlKeywords
import Verif.Proof.SqlWriting
import Verif.Proof.SqlWritable
import Verif.Props.SqlWriting
import Verif.Props.SqlPanic
import Verif.Model.BufferMemory
import Verif.Props.Slots
import Verif.Spec.SqlLeaves
import Verif.Proof.SqlLeaves
import Verif.Spec.SqlSynonyms
import Verif.Proof.SqlSynonyms
import Verif.Props.SqlKept
import Verif.Spec.Builds
import Verif.Proof.Builds
import Verif.Props.Builds
import Verif.Spec.Records
import Verif.Props.Records
import Verif.Model.JsonWriter
import Verif.Spec.JsonWriter
import Verif.Proof.JsonWriter
import Verif.Props.JsonWriter
import Verif.Model.Aligned
import Verif.Spec.Aligned
import Verif.Proof.Aligned
import Verif.Props.Aligned
import Verif.Model.JsonMachine
import Verif.Spec.JsonMachine
import Verif.Proof.JsonMachine
import Verif.Props.JsonMachine
import Verif.Model.JsonFill
import Verif.Spec.JsonFill
import Verif.Proof.JsonFill
import Verif.Props.JsonFill
import Verif.Model.BufferStop
import Verif.Spec.BufferStop
import Verif.Proof.BufferStop
import Verif.Props.BufferStop
import Verif.Proof.Accepts
import Verif.Props.Accepts
import Verif.Spec.JsonLexical
import Verif.Proof.JsonLexical
import Verif.Props.JsonLexical
import Verif.Model.BufferViews
import Verif.Spec.BufferViews
import Verif.Proof.BufferViews
import Verif.Props.BufferViews
import Verif.Props.RepoTests
import Verif.Spec.BufferProgress
import Verif.Proof.BufferProgress
import Verif.Props.BufferProgress
import Verif.Spec.Smooth
import Verif.Proof.Smooth
import Verif.Proof.SmoothExact
import Verif.Spec.SqlTables
import Verif.Proof.SqlTables
import Verif.Props.SqlTables
import Verif.Spec.Bits
import Verif.Proof.Overlay
import Verif.Props.Overlay
import Verif.Model.FileTable
import Verif.Spec.FileTable
import Verif.Proof.FileTable
import Verif.Props.FileTable
import Verif.Model.SqlStack
import Verif.Spec.SqlStack
import Verif.Proof.SqlStack
import Verif.Proof.SqlNesting
import Verif.Props.SqlStack
import Verif.Model.SqlCalls
import Verif.Spec.SqlCalls
import Verif.Proof.SqlCalls
import Verif.Proof.SqlParts
import Verif.Props.SqlCalls
import Verif.Spec.SqlWidth
import Verif.Proof.SqlWidth
import Verif.Props.SqlWidth
import Verif.Spec.SqlSteady
import Verif.Proof.SqlSteady
import Verif.Props.SqlSteady
import Verif.Model.JsonCalls
import Verif.Spec.JsonCalls
import Verif.Proof.JsonCalls
import Verif.Props.JsonCalls
import Verif.Model.MarshallerCalls
import Verif.Spec.MarshallerCalls
import Verif.Proof.MarshallerCalls
import Verif.Props.MarshallerCalls
import Verif.Spec.SqlFlaw
import Verif.Proof.SqlFlaw
import Verif.Proof.SqlFlawLists
import Verif.Proof.SqlFlawSteps
import Verif.Proof.SqlFlawSound
import Verif.Props.SqlFlaw
import Verif.Props.SqlOutline
import Verif.Props.SqlNotNull
import Verif.Props.Grown
import Verif.Spec.Extend
import Verif.Proof.Extend
import Verif.Props.Extend
import Verif.Spec.Atoms
import Verif.Proof.AtomsLayout
import Verif.Proof.Atoms
import Verif.Props.Atoms
import Verif.Spec.SqlSwap
import Verif.Proof.SqlSwap
import Verif.Props.SqlSwap
import Verif.Spec.SqlOrder
import Verif.Proof.SqlOrder
import Verif.Props.SqlOrder
import Verif.Spec.SqlRename
import Verif.Proof.SqlRename
import Verif.Props.SqlRename
import Verif.Spec.Dense
import Verif.Proof.Dense
import Verif.Props.Dense
import Verif.Spec.Reorder
import Verif.Proof.Reorder
import Verif.Props.Reorder
import Verif.Props.Fill
import Verif.Spec.Form
import Verif.Proof.Form
import Verif.Props.Form
import Verif.Spec.Distance
import Verif.Proof.Distance
import Verif.Props.Distance
import Verif.Proof.Unique
import Verif.Props.Unique
import Verif.Props.JsonUnique
import Verif.Props.Rebuild
import Verif.Props.Replace
