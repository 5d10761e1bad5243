import Verif.Props.Lexing
import Verif.Props.Diff
import Verif.Props.Parsing
import Verif.Props.OpenQuote
import Verif.Props.Generator
import Verif.Props.Annotation
import Verif.Props.Config
import Verif.Props.Cmd
import Verif.Props.Apply
import Verif.Props.ApplyDb
import Verif.Props.Comments
import Verif.Props.Attributes
import Verif.Props.Equivalence
import Verif.Props.Syntax
import Verif.Props.Variants
import Verif.Props.RoundTrip
import Verif.Props.RoundTripCrdb
import Verif.Props.RoundTripMy
import Verif.Props.RoundTripSp
import Verif.Props.Constraints
import Verif.Props.Synonyms
import Verif.Props.NoDifference
import Verif.Props.Migration
import Verif.Props.Run
import Verif.Props.Show
import Verif.Props.Schema
import Verif.Props.SchemaCrdb
import Verif.Props.SchemaMy
import Verif.Props.Follow
import Verif.Props.Generate
import Verif.Props.ShowText
import Verif.Props.ShowPg
import Verif.Tests.Pg
import Verif.Tests.Crdb
import Verif.Tests.My
import Verif.Tests.Sp
import Verif.Tests.Gen
import Verif.Props.NoDiff
import Verif.Props.Converge
import Verif.Props.GenerateRun
import Verif.Props.ShowRun
import Verif.Props.Written
import Verif.Props.Source
import Verif.Props.ApplyShown
import Verif.Main
import Verif.Props.Answer
import Verif.Props.Main
import Verif.Props.Undo
import Verif.Props.Parts
import Verif.Props.Load
import Verif.Props.Order
import Verif.Props.ApplyGo
import Verif.Props.Sides
import Verif.Props.Library
import Verif.Props.Once
import Verif.Props.TakeBack
import Verif.Props.Uncommented
import Verif.Props.Reason
import Verif.Props.Flavors
import Verif.Props.Answered
