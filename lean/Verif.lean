import Verif.Model.AnyGen
import Verif.Model.Base
import Verif.Model.Blog
import Verif.Model.Cdr
import Verif.Model.Circus
import Verif.Model.Clock
import Verif.Model.Components
import Verif.Model.Csv
import Verif.Model.Db
import Verif.Model.Describe
import Verif.Model.Empirical
import Verif.Model.Faker
import Verif.Model.FileSystem
import Verif.Model.Firsts
import Verif.Model.Frame
import Verif.Model.Functions
import Verif.Model.Generators
import Verif.Model.Hello
import Verif.Model.Logistic
import Verif.Model.Logs
import Verif.Model.Music
import Verif.Model.MusicDb
import Verif.Model.Namespace
import Verif.Model.Networks
import Verif.Model.Ops
import Verif.Model.Persistence
import Verif.Model.Population
import Verif.Model.Relationship
import Verif.Model.Rng
import Verif.Model.Shop
import Verif.Model.Slides
import Verif.Model.Snd
import Verif.Model.Story
import Verif.Model.Uganda
import Verif.Model.Util
import Verif.Model.World
import Verif.Proofs.Act
import Verif.Proofs.Api
import Verif.Proofs.Basic
import Verif.Proofs.BlogBuild
import Verif.Proofs.BlogRun
import Verif.Proofs.Builds
import Verif.Proofs.Cap
import Verif.Proofs.Cdr
import Verif.Proofs.CdrBuild
import Verif.Proofs.CdrFine
import Verif.Proofs.CdrObjects
import Verif.Proofs.CdrRun
import Verif.Proofs.CdrTalk
import Verif.Proofs.CdrTopups
import Verif.Proofs.CdrTrigger
import Verif.Proofs.Chain
import Verif.Proofs.Chance
import Verif.Proofs.Choice
import Verif.Proofs.Circus
import Verif.Proofs.Clock
import Verif.Proofs.Columns
import Verif.Proofs.Csv
import Verif.Proofs.DbFiles
import Verif.Proofs.DbFrame
import Verif.Proofs.DbLoad
import Verif.Proofs.DbPopulation
import Verif.Proofs.DbSave
import Verif.Proofs.DbText
import Verif.Proofs.DecimalFormat
import Verif.Proofs.Execute
import Verif.Proofs.Fields
import Verif.Proofs.FileSystem
import Verif.Proofs.Frame
import Verif.Proofs.Gen
import Verif.Proofs.Hash
import Verif.Proofs.HashCreate
import Verif.Proofs.HashRun
import Verif.Proofs.Health
import Verif.Proofs.HelloBuild
import Verif.Proofs.HelloBuilds
import Verif.Proofs.HelloRun
import Verif.Proofs.Hours
import Verif.Proofs.Ids
import Verif.Proofs.Kinds
import Verif.Proofs.Labels
import Verif.Proofs.Logs
import Verif.Proofs.ManyLabels
import Verif.Proofs.Merge
import Verif.Proofs.Msisdn
import Verif.Proofs.MusicBuild
import Verif.Proofs.MusicBuilds
import Verif.Proofs.MusicDb
import Verif.Proofs.MusicRun
import Verif.Proofs.Networks
import Verif.Proofs.NewStory
import Verif.Proofs.NpDelete
import Verif.Proofs.Object
import Verif.Proofs.Ops
import Verif.Proofs.OpsDate
import Verif.Proofs.OpsPops
import Verif.Proofs.OpsRespect
import Verif.Proofs.Persistence
import Verif.Proofs.Population
import Verif.Proofs.Records
import Verif.Proofs.Relationship
import Verif.Proofs.RelationshipHistory
import Verif.Proofs.Removal
import Verif.Proofs.Run
import Verif.Proofs.Select
import Verif.Proofs.SelectMany
import Verif.Proofs.ShopBuild
import Verif.Proofs.ShopBuilds
import Verif.Proofs.ShopEarly
import Verif.Proofs.ShopOps
import Verif.Proofs.ShopPlay
import Verif.Proofs.ShopRun
import Verif.Proofs.ShopTrigger
import Verif.Proofs.SlidesBuild
import Verif.Proofs.SlidesRun
import Verif.Proofs.Snd
import Verif.Proofs.SndBuilds
import Verif.Proofs.SndPops
import Verif.Proofs.SndResets
import Verif.Proofs.SndRun
import Verif.Proofs.SndSafe
import Verif.Proofs.SndSafeBuild
import Verif.Proofs.SndSafeRun
import Verif.Proofs.SndSims
import Verif.Proofs.Stock
import Verif.Proofs.Story
import Verif.Proofs.Typed
import Verif.Proofs.TypedCols
import Verif.Proofs.TypedMore
import Verif.Proofs.TypedOps
import Verif.Proofs.TypedPop
import Verif.Proofs.TypedRel
import Verif.Proofs.TypedRun
import Verif.Proofs.TypedStory
import Verif.Proofs.ValOrder
import Verif.Proofs.Values
import Verif.Props.Batches
import Verif.Props.Blog
import Verif.Props.BlogRuns
import Verif.Props.Cdr
import Verif.Props.CdrBuild
import Verif.Props.CdrExample
import Verif.Props.CdrStatus
import Verif.Props.CdrTrigger
import Verif.Props.Chain
import Verif.Props.Chance
import Verif.Props.Circus
import Verif.Props.Clock
import Verif.Props.Columns
import Verif.Props.Components
import Verif.Props.Creation
import Verif.Props.Csv
import Verif.Props.Dataframe
import Verif.Props.Db
import Verif.Props.DbPopulation
import Verif.Props.Derived
import Verif.Props.Describe
import Verif.Props.Empirical
import Verif.Props.ExampleBuilds
import Verif.Props.Faker
import Verif.Props.Fields
import Verif.Props.FileSystem
import Verif.Props.Firsts
import Verif.Props.Functions
import Verif.Props.GeneratorSizes
import Verif.Props.Generators
import Verif.Props.Given
import Verif.Props.Hash
import Verif.Props.Health
import Verif.Props.HealthExample
import Verif.Props.Hello
import Verif.Props.HelloBuilds
import Verif.Props.HelloRuns
import Verif.Props.Hours
import Verif.Props.Ids
import Verif.Props.Journal
import Verif.Props.Ledger
import Verif.Props.Logger
import Verif.Props.Logistic
import Verif.Props.Logs
import Verif.Props.Lookup
import Verif.Props.Msisdn
import Verif.Props.Music
import Verif.Props.MusicBuilds
import Verif.Props.MusicDb
import Verif.Props.MusicRuns
import Verif.Props.Namespace
import Verif.Props.Networks
import Verif.Props.Observations
import Verif.Props.Operations
import Verif.Props.Periodic
import Verif.Props.Persistence
import Verif.Props.Population
import Verif.Props.Quantities
import Verif.Props.RelationOps
import Verif.Props.Relationship
import Verif.Props.Repeatable
import Verif.Props.Replies
import Verif.Props.Reports
import Verif.Props.Run
import Verif.Props.Seeds
import Verif.Props.SelectMany
import Verif.Props.SelectOps
import Verif.Props.SelectWeights
import Verif.Props.Selection
import Verif.Props.Shop
import Verif.Props.ShopBuild
import Verif.Props.ShopBuilds
import Verif.Props.ShopEarly
import Verif.Props.ShopRuns
import Verif.Props.ShopTrigger
import Verif.Props.Slides
import Verif.Props.SlidesRuns
import Verif.Props.Snd
import Verif.Props.SndBuilds
import Verif.Props.SndRetry
import Verif.Props.SndRuns
import Verif.Props.SndSims
import Verif.Props.Stock
import Verif.Props.Story
import Verif.Props.StoryHistory
import Verif.Props.StoryOps
import Verif.Props.StoryStates
import Verif.Props.Trigger
import Verif.Props.Typed
import Verif.Props.Util
import Verif.Props.Values
import Verif.Props.Weights
import Verif.Spec.Api
import Verif.Spec.Begins
import Verif.Spec.Blog
import Verif.Spec.BuiltIn
import Verif.Spec.Cdr
import Verif.Spec.CdrStatus
import Verif.Spec.CdrTrigger
import Verif.Spec.Chain
import Verif.Spec.Chance
import Verif.Spec.Circus
import Verif.Spec.Clock
import Verif.Spec.Columns
import Verif.Spec.Csv
import Verif.Spec.Db
import Verif.Spec.Describe
import Verif.Spec.ExampleWorld
import Verif.Spec.Fields
import Verif.Spec.FileSystem
import Verif.Spec.Firsts
import Verif.Spec.Frame
import Verif.Spec.Gen
import Verif.Spec.Given
import Verif.Spec.Hash
import Verif.Spec.Health
import Verif.Spec.Hello
import Verif.Spec.Hours
import Verif.Spec.Instances
import Verif.Spec.Journal
import Verif.Spec.Ledger
import Verif.Spec.Logs
import Verif.Spec.Msisdn
import Verif.Spec.Music
import Verif.Spec.Networks
import Verif.Spec.Object
import Verif.Spec.Periodic
import Verif.Spec.Persistence
import Verif.Spec.Population
import Verif.Spec.Relationship
import Verif.Spec.Reports
import Verif.Spec.Run
import Verif.Spec.Shop
import Verif.Spec.ShopEarly
import Verif.Spec.Slides
import Verif.Spec.SndRetry
import Verif.Spec.SndSound
import Verif.Spec.SndSupplied
import Verif.Spec.Stock
import Verif.Spec.Story
import Verif.Spec.Streams
import Verif.Spec.Trigger
import Verif.Spec.Typed
import Verif.Spec.Util
import Verif.Spec.Values
import Verif.Spec.Weights
