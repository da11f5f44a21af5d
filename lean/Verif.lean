import Verif.Go.Bytes
import Verif.Go.Path
import Verif.Go.Quote
import Verif.Go.Space
import Verif.Go.Strconv
import Verif.Go.Utf8
import Verif.Go.Xml
import Verif.Go.XmlOut
import Verif.Model.Attrs
import Verif.Model.Describe
import Verif.Model.Diff
import Verif.Model.Dim
import Verif.Model.Doc
import Verif.Model.Draw
import Verif.Model.Dump
import Verif.Model.EnUs
import Verif.Model.Engine
import Verif.Model.Fonts
import Verif.Model.Fpdf
import Verif.Model.Grid
import Verif.Model.Hyphen
import Verif.Model.Image
import Verif.Model.ImageMain
import Verif.Model.Load
import Verif.Model.Main
import Verif.Model.NewFpdf
import Verif.Model.Paths
import Verif.Model.Process
import Verif.Model.RenderTable
import Verif.Model.Style
import Verif.Model.Table
import Verif.Model.Tables.EnUs
import Verif.Model.Tables.Latin
import Verif.Model.Text
import Verif.Model.TextLines
import Verif.Model.Write
import Verif.Proofs.Agree
import Verif.Proofs.Alike
import Verif.Proofs.AlikeLoad
import Verif.Proofs.AlikeTable
import Verif.Proofs.Attrs
import Verif.Proofs.Bytes
import Verif.Proofs.Content
import Verif.Proofs.Fewest
import Verif.Proofs.Fill
import Verif.Proofs.Filling
import Verif.Proofs.Grid
import Verif.Proofs.Hyphen
import Verif.Proofs.Inside
import Verif.Proofs.Intact
import Verif.Proofs.Laid
import Verif.Proofs.Late
import Verif.Proofs.Laying
import Verif.Proofs.Load
import Verif.Proofs.LoadDoc
import Verif.Proofs.LoadExact
import Verif.Proofs.LoadMono
import Verif.Proofs.LoadTree
import Verif.Proofs.LoadWalk
import Verif.Proofs.Locality
import Verif.Proofs.Looks
import Verif.Proofs.Margins
import Verif.Proofs.Matters
import Verif.Proofs.NewFpdf
import Verif.Proofs.Origin
import Verif.Proofs.Outside
import Verif.Proofs.PageCount
import Verif.Proofs.PageNumber
import Verif.Proofs.Path
import Verif.Proofs.Pattern
import Verif.Proofs.Pictures
import Verif.Proofs.Places
import Verif.Proofs.Placing
import Verif.Proofs.PlainTable
import Verif.Proofs.Printing
import Verif.Proofs.Process
import Verif.Proofs.Quote
import Verif.Proofs.RenderTable
import Verif.Proofs.Restyled
import Verif.Proofs.Rules
import Verif.Proofs.Sim
import Verif.Proofs.Sizes
import Verif.Proofs.Sources
import Verif.Proofs.Space
import Verif.Proofs.Spacing
import Verif.Proofs.Spelled
import Verif.Proofs.Stacked
import Verif.Proofs.Style
import Verif.Proofs.StyleCascade
import Verif.Proofs.StyleClass
import Verif.Proofs.StyleText
import Verif.Proofs.StyleValue
import Verif.Proofs.TableCols
import Verif.Proofs.TableDims
import Verif.Proofs.TableEnUs
import Verif.Proofs.TableHeights
import Verif.Proofs.TableInv
import Verif.Proofs.TableLaid
import Verif.Proofs.TableLatin
import Verif.Proofs.TableOverlap
import Verif.Proofs.TableRows
import Verif.Proofs.TableSpans
import Verif.Proofs.Tables
import Verif.Proofs.Text
import Verif.Proofs.TextLines
import Verif.Proofs.Typeset
import Verif.Proofs.Utf8
import Verif.Proofs.Words
import Verif.Proofs.Wordwise
import Verif.Proofs.Write
import Verif.Proofs.Writing
import Verif.Props.Alike
import Verif.Props.Attrs
import Verif.Props.Blank
import Verif.Props.Bottom
import Verif.Props.Cells
import Verif.Props.Content
import Verif.Props.Describe
import Verif.Props.Diff
import Verif.Props.Draw
import Verif.Props.Dump
import Verif.Props.Fewest
import Verif.Props.Fill
import Verif.Props.Filling
import Verif.Props.Fonts
import Verif.Props.Frame
import Verif.Props.Grid
import Verif.Props.Hyphen
import Verif.Props.ImageMain
import Verif.Props.InStep
import Verif.Props.Inside
import Verif.Props.Intact
import Verif.Props.Joined
import Verif.Props.Laid
import Verif.Props.Late
import Verif.Props.Laying
import Verif.Props.Leaflets
import Verif.Props.Load
import Verif.Props.Locality
import Verif.Props.Looks
import Verif.Props.Main
import Verif.Props.Margins
import Verif.Props.Matters
import Verif.Props.Neat
import Verif.Props.Numbers
import Verif.Props.Order
import Verif.Props.Origin
import Verif.Props.Outline
import Verif.Props.Outside
import Verif.Props.Overlap
import Verif.Props.PageCount
import Verif.Props.Pages
import Verif.Props.Paper
import Verif.Props.Path
import Verif.Props.Pictures
import Verif.Props.Places
import Verif.Props.Placing
import Verif.Props.Plainly
import Verif.Props.Printing
import Verif.Props.Process
import Verif.Props.RenderTable
import Verif.Props.RepoTests
import Verif.Props.Restyled
import Verif.Props.Rules
import Verif.Props.Sheets
import Verif.Props.Sizes
import Verif.Props.Sources
import Verif.Props.Spacing
import Verif.Props.Spelled
import Verif.Props.Stacked
import Verif.Props.Style
import Verif.Props.Table
import Verif.Props.TableClear
import Verif.Props.TableOverlap
import Verif.Props.TableStyles
import Verif.Props.Text
import Verif.Props.TextLines
import Verif.Props.Tiles
import Verif.Props.Typeset
import Verif.Props.Words
import Verif.Props.Wordwise
import Verif.Props.Write
import Verif.Props.Writing
import Verif.Spec.Alike
import Verif.Spec.Attrs
import Verif.Spec.Blank
import Verif.Spec.Bottom
import Verif.Spec.Cells
import Verif.Spec.Content
import Verif.Spec.Diff
import Verif.Spec.Draw
import Verif.Spec.Dump
import Verif.Spec.Fewest
import Verif.Spec.Fill
import Verif.Spec.Filling
import Verif.Spec.Frame
import Verif.Spec.Hyphen
import Verif.Spec.InStep
import Verif.Spec.Inside
import Verif.Spec.Joined
import Verif.Spec.Laid
import Verif.Spec.Laying
import Verif.Spec.Leaflets
import Verif.Spec.Load
import Verif.Spec.Looks
import Verif.Spec.Margins
import Verif.Spec.Matters
import Verif.Spec.Neat
import Verif.Spec.Order
import Verif.Spec.Origin
import Verif.Spec.Outline
import Verif.Spec.Outside
import Verif.Spec.Overlap
import Verif.Spec.PageCount
import Verif.Spec.Paper
import Verif.Spec.Path
import Verif.Spec.Pictures
import Verif.Spec.Places
import Verif.Spec.Plainly
import Verif.Spec.Printing
import Verif.Spec.Process
import Verif.Spec.Quote
import Verif.Spec.RenderTable
import Verif.Spec.Restyled
import Verif.Spec.Rules
import Verif.Spec.Sheets
import Verif.Spec.Sizes
import Verif.Spec.Sources
import Verif.Spec.Space
import Verif.Spec.Spacing
import Verif.Spec.Spans
import Verif.Spec.Spelled
import Verif.Spec.Stacked
import Verif.Spec.Style
import Verif.Spec.Table
import Verif.Spec.TableStyles
import Verif.Spec.Text
import Verif.Spec.TextLines
import Verif.Spec.Tiles
import Verif.Spec.Typeset
import Verif.Spec.Words
import Verif.Spec.Wordwise
import Verif.Spec.Writing
