import Verif.Lemmas.Alias
import Verif.Lemmas.Block
import Verif.Lemmas.BlockDoc
import Verif.Lemmas.BlockPacket
import Verif.Lemmas.BlockRead20
import Verif.Lemmas.BlockShape
import Verif.Lemmas.BlockValue
import Verif.Lemmas.CatTable
import Verif.Lemmas.CifDic
import Verif.Lemmas.CifDicOrder
import Verif.Lemmas.CifDicTree
import Verif.Lemmas.Collection
import Verif.Lemmas.CollectionMerge
import Verif.Lemmas.CollectionOps
import Verif.Lemmas.CollectionTree
import Verif.Lemmas.Ddl1
import Verif.Lemmas.Ddl1Cat
import Verif.Lemmas.Ddl1Check
import Verif.Lemmas.Ddl1Coll
import Verif.Lemmas.Ddl1Loops
import Verif.Lemmas.Ddl2
import Verif.Lemmas.Decode
import Verif.Lemmas.Derive
import Verif.Lemmas.DeriveJoin
import Verif.Lemmas.Dialect
import Verif.Lemmas.Dict
import Verif.Lemmas.DrelAgree
import Verif.Lemmas.DrelCall
import Verif.Lemmas.DrelExpr
import Verif.Lemmas.DrelForms
import Verif.Lemmas.DrelGood
import Verif.Lemmas.DrelItems
import Verif.Lemmas.DrelLayout
import Verif.Lemmas.DrelLex
import Verif.Lemmas.DrelLexAll
import Verif.Lemmas.DrelLexNum
import Verif.Lemmas.DrelLexPut
import Verif.Lemmas.DrelLexText
import Verif.Lemmas.DrelLexTok
import Verif.Lemmas.DrelLit
import Verif.Lemmas.DrelLoop
import Verif.Lemmas.DrelNotes
import Verif.Lemmas.DrelParser
import Verif.Lemmas.DrelProgram
import Verif.Lemmas.DrelRules
import Verif.Lemmas.DrelStmtAll
import Verif.Lemmas.DrelStmtGood
import Verif.Lemmas.DrelStmtMain
import Verif.Lemmas.DrelStmtNotes
import Verif.Lemmas.DrelText
import Verif.Lemmas.DrelTotal
import Verif.Lemmas.EditDic
import Verif.Lemmas.FileMerge
import Verif.Lemmas.FileRead
import Verif.Lemmas.Forest
import Verif.Lemmas.FrameCore
import Verif.Lemmas.FrameFile
import Verif.Lemmas.FullImport
import Verif.Lemmas.FullImportJoin
import Verif.Lemmas.LR
import Verif.Lemmas.Lex
import Verif.Lemmas.Lex11
import Verif.Lemmas.Lex20
import Verif.Lemmas.LexValue
import Verif.Lemmas.LoopTables
import Verif.Lemmas.LooseColl
import Verif.Lemmas.Match
import Verif.Lemmas.Number
import Verif.Lemmas.NumberRx
import Verif.Lemmas.Print
import Verif.Lemmas.PrintTotal
import Verif.Lemmas.PyBlock
import Verif.Lemmas.PyEq
import Verif.Lemmas.PyGood
import Verif.Lemmas.PyLex
import Verif.Lemmas.PyLines
import Verif.Lemmas.PyParse
import Verif.Lemmas.PyStmtEq
import Verif.Lemmas.PyStmtText
import Verif.Lemmas.ReadBack
import Verif.Lemmas.ReadDoc
import Verif.Lemmas.ReadEnds
import Verif.Lemmas.ReadEndsBlocks
import Verif.Lemmas.ReadEndsColl
import Verif.Lemmas.ReadEndsRules
import Verif.Lemmas.ReadFile
import Verif.Lemmas.ReadFrames
import Verif.Lemmas.ReadFramesFile
import Verif.Lemmas.ReadStar
import Verif.Lemmas.ReadValue
import Verif.Lemmas.ReadValue20
import Verif.Lemmas.Reader
import Verif.Lemmas.Regex
import Verif.Lemmas.RemoveDic
import Verif.Lemmas.RenameDic
import Verif.Lemmas.Report
import Verif.Lemmas.RoundTrip
import Verif.Lemmas.Scan
import Verif.Lemmas.Scopes
import Verif.Lemmas.SemPacket
import Verif.Lemmas.Sink
import Verif.Lemmas.StoreDoc
import Verif.Lemmas.Template
import Verif.Lemmas.TemplateAll
import Verif.Lemmas.TemplateHeader
import Verif.Lemmas.TemplateLoop
import Verif.Lemmas.Text
import Verif.Lemmas.Transform
import Verif.Lemmas.TypeContents
import Verif.Lemmas.TypeInfo
import Verif.Lemmas.ValidFile
import Verif.Lemmas.Validate
import Verif.Lemmas.ValidateLoop
import Verif.Lemmas.ValidateRel
import Verif.Lemmas.ValidateRun
import Verif.Lemmas.Wrap
import Verif.Lemmas.WriteDoc20
import Verif.Lemmas.WriteOut
import Verif.Lemmas.WriteValue20
import Verif.Lemmas.Yapps
import Verif.Model.Alias
import Verif.Model.Block
import Verif.Model.CatTable
import Verif.Model.CifBlock
import Verif.Model.CifDic
import Verif.Model.Collection
import Verif.Model.Convert
import Verif.Model.Ddl1
import Verif.Model.Ddl2
import Verif.Model.Decode
import Verif.Model.Derive
import Verif.Model.Dict
import Verif.Model.Drel
import Verif.Model.DrelGrammar
import Verif.Model.DrelLex
import Verif.Model.DrelPy
import Verif.Model.DrelStmt
import Verif.Model.DrelTable
import Verif.Model.EditDic
import Verif.Model.FileMerge
import Verif.Model.FullImport
import Verif.Model.Import
import Verif.Model.LR
import Verif.Model.LoopView
import Verif.Model.Number
import Verif.Model.Order
import Verif.Model.Print
import Verif.Model.ReadStar
import Verif.Model.Reader
import Verif.Model.Regex
import Verif.Model.Report
import Verif.Model.Scan
import Verif.Model.Scopes
import Verif.Model.SemPacket
import Verif.Model.Shape
import Verif.Model.Template
import Verif.Model.TemplateAll
import Verif.Model.TemplateHeader
import Verif.Model.TemplateLoop
import Verif.Model.Text
import Verif.Model.Transform
import Verif.Model.TypeContents
import Verif.Model.TypeInfo
import Verif.Model.ValidCifFile
import Verif.Model.ValidFile
import Verif.Model.Validate
import Verif.Model.Value
import Verif.Model.Wrap
import Verif.Model.WriteOut
import Verif.Model.WriteText
import Verif.Props.Alias
import Verif.Props.Block
import Verif.Props.BlockLoop
import Verif.Props.BlockMerge
import Verif.Props.BlockPacket
import Verif.Props.CatTable
import Verif.Props.CatTableCases
import Verif.Props.CifBlock
import Verif.Props.CifDic
import Verif.Props.CifDicOrder
import Verif.Props.CifDicTree
import Verif.Props.Collection
import Verif.Props.CollectionMerge
import Verif.Props.CollectionTree
import Verif.Props.Convert
import Verif.Props.Ddl1
import Verif.Props.Ddl2
import Verif.Props.Ddl2Cases
import Verif.Props.Decode
import Verif.Props.Derive
import Verif.Props.DeriveJoin
import Verif.Props.DeriveOrder
import Verif.Props.DeriveRead
import Verif.Props.Drel
import Verif.Props.DrelForms
import Verif.Props.DrelLayout
import Verif.Props.DrelLex
import Verif.Props.DrelParser
import Verif.Props.DrelPy
import Verif.Props.DrelPyCases
import Verif.Props.DrelStmt
import Verif.Props.DrelStmtCases
import Verif.Props.DrelUses
import Verif.Props.EditDic
import Verif.Props.FileMerge
import Verif.Props.FrameFile
import Verif.Props.FrameFileCases
import Verif.Props.FullImport
import Verif.Props.Import
import Verif.Props.ImportAll
import Verif.Props.ImportContents
import Verif.Props.LoopTables
import Verif.Props.LoopView
import Verif.Props.Number
import Verif.Props.Order
import Verif.Props.Print
import Verif.Props.ReadBack
import Verif.Props.ReadBack20
import Verif.Props.ReadBack20Cases
import Verif.Props.ReadBackCases
import Verif.Props.ReadEnds
import Verif.Props.ReadStar
import Verif.Props.Reader
import Verif.Props.RemoveDic
import Verif.Props.RenameDic
import Verif.Props.Report
import Verif.Props.RoundTrip
import Verif.Props.Scan
import Verif.Props.Scopes
import Verif.Props.SemPacket
import Verif.Props.SemPacketCases
import Verif.Props.Shape
import Verif.Props.Template
import Verif.Props.TemplateAll
import Verif.Props.TemplateHeader
import Verif.Props.TemplateLoop
import Verif.Props.Text
import Verif.Props.Transform
import Verif.Props.TypeContents
import Verif.Props.TypeInfo
import Verif.Props.ValidCifFile
import Verif.Props.ValidFile
import Verif.Props.ValidateBlock
import Verif.Props.ValidateItem
import Verif.Props.ValidateLoop
import Verif.Props.ValidateRel
import Verif.Props.Wrap
import Verif.Props.WriteOut
import Verif.Spec.Alias
import Verif.Spec.Block
import Verif.Spec.CatTable
import Verif.Spec.CifDic
import Verif.Spec.Collection
import Verif.Spec.Convert
import Verif.Spec.Ddl1
import Verif.Spec.Decode
import Verif.Spec.Derive
import Verif.Spec.DrelExpr
import Verif.Spec.DrelFits
import Verif.Spec.DrelForms
import Verif.Spec.DrelGrammar
import Verif.Spec.DrelLayout
import Verif.Spec.DrelMeaning
import Verif.Spec.DrelProgram
import Verif.Spec.DrelReady
import Verif.Spec.DrelStepFits
import Verif.Spec.DrelSteps
import Verif.Spec.DrelText
import Verif.Spec.DrelUses
import Verif.Spec.EditDic
import Verif.Spec.FileMerge
import Verif.Spec.FrameFile
import Verif.Spec.FullImport
import Verif.Spec.Import
import Verif.Spec.LR
import Verif.Spec.LoopView
import Verif.Spec.Number
import Verif.Spec.Print
import Verif.Spec.PyStmt
import Verif.Spec.PyText
import Verif.Spec.ReadEnds
import Verif.Spec.ReadStar
import Verif.Spec.Reader
import Verif.Spec.Report
import Verif.Spec.RoundTrip
import Verif.Spec.RoundTrip20
import Verif.Spec.Scan
import Verif.Spec.Scopes
import Verif.Spec.SemPacket
import Verif.Spec.Shape
import Verif.Spec.Template
import Verif.Spec.TemplateHeader
import Verif.Spec.TemplateLoop
import Verif.Spec.Text
import Verif.Spec.Transform
import Verif.Spec.TypeContents
import Verif.Spec.TypeInfo
import Verif.Spec.ValidCifFile
import Verif.Spec.ValidFile
import Verif.Spec.Validate
import Verif.Spec.ValidateRun
import Verif.Spec.Wrap
import Verif.Spec.WriteOut
