import Verif.Props.BaseN
import Verif.Props.Generated
import Verif.Props.Hex
import Verif.Props.Range
import Verif.Props.Boolean
import Verif.Props.Line
import Verif.Props.Ip
import Verif.Props.Domain
import Verif.Props.Host
import Verif.Props.Email
import Verif.Props.Url
import Verif.Props.Phone
import Verif.Props.Wrapper
import Verif.Props.Serde
import Verif.Props.SerdeBack
import Verif.Props.Attr
import Verif.Props.AttrBounds
import Verif.Props.Derive
import Verif.Props.Options
import Verif.Props.Widen
import Verif.Props.Agree
import Verif.Props.CaseFold
import Verif.Props.DerivePanic
import Verif.Props.Diag
import Verif.Props.LineMax
import Verif.Props.Errors
import Verif.Props.Expect
import Verif.Props.Integrations
import Verif.Props.Features
import Verif.Props.HostText
import Verif.Props.Surface
import Verif.Props.Traits
import Verif.Props.Constants
import Verif.Props.Reproducible
import Verif.Props.Float
import Verif.Props.FloatAttr
import Verif.Conformance.Base32
import Verif.Conformance.Base32Decoded
import Verif.Conformance.Base64
import Verif.Conformance.Base64Decoded
import Verif.Conformance.Base64Url
import Verif.Conformance.Base64UrlDecoded
import Verif.Conformance.Bit
import Verif.Conformance.Boolean
import Verif.Conformance.Byte
import Verif.Conformance.Domain
import Verif.Conformance.Email
import Verif.Conformance.Harness
import Verif.Conformance.Host
import Verif.Conformance.HttpFtpUrl
import Verif.Conformance.HttpUrl
import Verif.Conformance.Ip
import Verif.Conformance.Ipv4
import Verif.Conformance.Ipv6
import Verif.Conformance.Length
import Verif.Conformance.Line
import Verif.Conformance.MacAddress
import Verif.Conformance.Manual
import Verif.Conformance.Number
import Verif.Conformance.Phone
import Verif.Conformance.SignedInteger
import Verif.Conformance.Text
import Verif.Conformance.UnsignedInteger
import Verif.Conformance.Uuid
import Verif.Props.IpErrors
import Verif.Props.Order
import Verif.Props.EmailOrder
import Verif.Props.EmailExact
import Verif.Spec.TextOrder
import Verif.Proof.TextOrder
import Verif.Props.TextOrder
import Verif.Spec.Longest
import Verif.Proof.Longest
import Verif.Props.Longest
import Verif.Spec.Control
import Verif.Proof.Control
import Verif.Props.Control
import Verif.Model.Input
import Verif.Spec.Input
import Verif.Props.Input
import Verif.Spec.Uri
import Verif.Spec.Mailbox
import Verif.Proof.Uri
import Verif.Proof.Mailbox
import Verif.Proof.Written
import Verif.Props.Uri
import Verif.Props.Mailbox
import Verif.Props.Written
import Verif.Props.Sides
import Verif.Props.Prefix
import Verif.Spec.Asks
import Verif.Props.Asks
import Verif.Props.Reach
import Verif.Props.ReachEmail
import Verif.Spec.Numbers
import Verif.Props.Numbers
import Verif.Props.WrittenLength
import Verif.Spec.Locality
import Verif.Props.Locality
import Verif.Props.Join
import Verif.Props.Comments
import Verif.Spec.Builds
import Verif.Props.Builds
import Verif.Spec.Canonical
import Verif.Props.Canonical
import Verif.Spec.Variants
import Verif.Props.Variants
