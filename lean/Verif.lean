import Verif.Props.Names
import Verif.Props.Listing
import Verif.Props.Resources
import Verif.Props.Checks
import Verif.Props.Binding
import Verif.Props.GoNames
import Verif.Props.Docs
import Verif.Props.GoBuffer
import Verif.Props.Reader
import Verif.Props.Session
import Verif.Props.Comments
import Verif.Props.Json
import Verif.Props.Query
import Verif.Props.Bodies
import Verif.Props.Errors
import Verif.Props.Polling
import Verif.Props.UrlValues
import Verif.Props.Clients
import Verif.Props.ClientPaths
import Verif.Props.OpenApiBuffer
import Verif.Props.OpenApi
import Verif.Props.OpenApiDoc
import Verif.Props.GoTypes
import Verif.Props.Builders
import Verif.Props.ClassRef
import Verif.Props.Language
import Verif.Props.Literals
import Verif.Props.Walk
import Verif.Props.Content
import Verif.Props.Source
import Verif.Props.GoRefs
import Verif.Props.Files
import Verif.Props.Reporter
import Verif.Props.Template
import Verif.Props.Dates
import Verif.Props.Declarations
import Verif.Props.Members
import Verif.Props.Outcome
import Verif.Props.Whole
import Verif.Props.Accept
import Verif.Props.FieldTypes
import Verif.Props.TypesCode
import Verif.Props.TypesRun
import Verif.Props.BuildersCode
import Verif.Props.BuildersRun
import Verif.Props.BuildersCopy
import Verif.Props.ModelRun
import Verif.Props.JsonCode
import Verif.Props.JsonRun
import Verif.Props.JsonReadRun
import Verif.Props.JsonModelRun
import Verif.Props.MethodsCode
import Verif.Props.MethodsRun
import Verif.Props.MetadataRun
import Verif.Props.MethodsModelRun
import Verif.Props.MetricsCode
import Verif.Props.ErrorsCode
import Verif.Props.ServiceClient
import Verif.Props.ResourceClient
import Verif.Props.MessagesCode
import Verif.Props.ClientFile
import Verif.Props.Support
import Verif.Props.Wiring
import Verif.Props.Writer
import Verif.Props.PollClient
import Verif.Props.Buffers
