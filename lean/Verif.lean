import Verif.Bytes
import Verif.Nom
import Verif.Utf8
import Verif.Time
import Verif.Asn1Core
import Verif.Asn1Wf
import Verif.Asn1Lemmas
import Verif.Asn1Messages
import Verif.Asn1MsgLemmas
import Verif.Asn1Spec
import Verif.Asn1SpecLemmas
import Verif.Asn1Misc
import Verif.CCacheModel
import Verif.CCacheSpec
import Verif.CCacheLemmas
import Verif.KeytabModel
import Verif.KeytabSpec
import Verif.KeytabLemmas
import Verif.NFoldModel
import Verif.NFoldSpec
import Verif.NFoldLemmas
import Verif.CryptoModel
import Verif.CryptoLemmas
import Verif.KeyModel
import Verif.Props.CCache
import Verif.Props.Keytab
import Verif.Props.NFold
import Verif.Props.Crypto
import Verif.Props.Keys
import Verif.Props.Asn1
import Verif.MappersModel
import Verif.MappersLemmas
import Verif.Props.Mappers
import Verif.Props.KrbCred
import Verif.Props.Warehouse
import Verif.ClientModel
import Verif.ClientSpec
import Verif.ToyPrims
import Verif.TransportModel
import Verif.Props.Client
import Verif.Props.Dialogue
import Verif.Props.Transport
import Verif.ConstantsModel
import Verif.Props.ClientGaps
import Verif.Props.Constants
import Verif.RfcSpec
import Verif.Props.Rfc
import Verif.StdHash
import Verif.StdAes
import Verif.StdPrims
import Verif.StdVectors
import Verif.RepoVectors
import Verif.RepoVectorsKdc
import Verif.Props.Std
import Verif.AesSpec
import Verif.Props.Fips
import Verif.HashSpec
import Verif.HashSame
import Verif.HashSines
import Verif.Props.Hashes
import Verif.MitSpec
import Verif.Props.Mit
import Verif.Props.EndToEnd
import Verif.DerLemmas
import Verif.KdcSpec
import Verif.Props.Kdc
import Verif.Props.KdcMore
import Verif.Asn1ReadSpec
import Verif.Asn1ReadLemmas
import Verif.Asn1ReadMsgs
import Verif.Props.Reading
import Verif.Props.TwoRoads
import Verif.EqModel
import Verif.TextModel
import Verif.ResourceModel
import Verif.Props.Equality
import Verif.Props.Text
import Verif.Props.Resources
import Verif.DefaultModel
import Verif.Props.Defaults
import Verif.Props.Resave
import Verif.Utf8Lossy
import Verif.Props.Kinds
import Verif.Props.Numbers
import Verif.ConcurrentModel
import Verif.Props.Concurrent
import Verif.Props.Readers
import Verif.AddressModel
import Verif.Props.Addresses
import Verif.PermissionModel
import Verif.ErrorModel
import Verif.Props.Permissions
import Verif.Props.ErrorTexts
import Verif.Props.Trust
import Verif.Props.Config
import Verif.Asn1Growth
import Verif.Props.Lengths
import Verif.Props.Exchange
import Verif.SessionModel
import Verif.Props.Session
import Verif.Props.Interchange
import Verif.Props.Settle
import Verif.NFoldCert
import Verif.Props.KeySeparation
import Verif.LoadModel
import Verif.Props.Load
import Verif.Props.Printed
import Verif.Props.Traffic
import Verif.Props.Salts
import Verif.Props.Answers
import Verif.Props.ClockOffset
import Verif.Props.DebugTexts
import Verif.Props.Fresh
import Verif.ParallelModel
import Verif.Props.Parallel
import Verif.WorkModel
import Verif.Props.Work
import Verif.Props.LoadExact
import Verif.Props.Size
import Verif.TraceModel
import Verif.TraceLemmas
import Verif.Props.Trace
import Verif.Asn1OptionalSpec
import Verif.Asn1OptionalLemmas
import Verif.Props.Optional
import Verif.Props.KdcWrong
import Verif.Props.Skew
import Verif.Asn1Count
import Verif.Asn1CountLemmas
import Verif.ClientCount
import Verif.Props.Count
import Verif.PowerModel
import Verif.Props.Power
import Verif.Props.Extensions
import Verif.Props.Retry
import Verif.Props.Damage
import Verif.Props.Readme
import Verif.Props.Passwords
import Verif.Props.KeytabTools
import Verif.Props.CacheTools
import Verif.Props.Names
import Verif.Props.Renamed
import Verif.ApSpec
import Verif.Props.Service
import Verif.Props.Tgs
import Verif.Props.TgsSubkey
import Verif.Props.Journey
import Verif.Props.PrivSafe
