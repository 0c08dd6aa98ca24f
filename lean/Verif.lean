import Verif.Props.Pem
import Verif.Props.Codec
import Verif.Props.Schema
import Verif.Props.Registry
import Verif.Props.Oid
import Verif.Props.Open
import Verif.Props.Prototype
import Verif.Props.Protocol
import Verif.Props.Cmc
import Verif.Props.Cmp
import Verif.Props.Defects
import Verif.Props.Compat
import Verif.Props.Import
import Verif.Props.Der
import Verif.Props.Ber
import Verif.Props.Tagging
import Verif.Props.Client
import Verif.Asn1.Items
import Verif.Props.Parts
import Verif.Props.Filter
import Verif.Props.Nested
import Verif.Gen.Final
import Verif.Spec.Path
import Verif.Spec.Constraint
import Verif.Props.Constraint
import Verif.Props.Universal
import Verif.Props.Scripts
import Verif.Props.Standard
import Verif.Props.Stream
import Verif.Props.Objects
import Verif.Props.PemFile
import Verif.Props.Built
import Verif.Props.Governed
import Verif.Props.OpenTypes
import Verif.Props.OpenDer
import Verif.Props.Keep
import Verif.Props.Kinds
import Verif.Props.InMemory
import Verif.Props.Threads
import Verif.Props.Times
import Verif.Props.While
import Verif.Props.Assign
import Verif.Props.Versions
import Verif.Props.Size
import Verif.Props.Sharing
import Verif.Props.Shortest
import Verif.Props.Basic
import Verif.Props.Change
import Verif.Props.Lookup
import Verif.Props.Names
import Verif.Props.KindsBer
import Verif.Props.Bundle
import Verif.Props.BerOpen
import Verif.Props.Typed
import Verif.Props.Normal
import Verif.Props.TypedWith
import Verif.Props.BerOpenWith
import Verif.Props.DictBounds
import Verif.Props.TypedStream
import Verif.Spec.TypedBundle
import Verif.Props.TypedBundle
import Verif.Props.DictOrder
