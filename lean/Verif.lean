import Verif.Props.Headers
import Verif.Props.Envelope
import Verif.Props.Timeout
import Verif.Props.Text
import Verif.Props.Negotiate
import Verif.Props.Protocol
import Verif.Props.Addresses
import Verif.Props.Errors
import Verif.Props.EndStream
import Verif.Props.Client
import Verif.Props.Routing
import Verif.Props.Unary
import Verif.Props.Stream
import Verif.Props.Oversize
import Verif.Props.UnaryResponse
import Verif.Props.Interceptor
import Verif.Props.Lifespan
import Verif.Props.AsyncTimeout
import Verif.Props.RespContext
import Verif.Spec.Transport
import Verif.Proofs.Transport
import Verif.Proofs.World
import Verif.Props.EndToEnd
import Verif.Props.RequestBody
import Verif.Spec.StreamTransport
import Verif.Proofs.StreamTransport
import Verif.Props.StreamEndToEnd
import Verif.Model.CodeGen
import Verif.Spec.CodeGen
import Verif.Proofs.CodeGen
import Verif.Props.CodeGen
import Verif.Model.Otel
import Verif.Spec.Otel
import Verif.Proofs.Otel
import Verif.Props.Otel
import Verif.Spec.Wire
import Verif.Proofs.WireJson
import Verif.Proofs.Wire
import Verif.Spec.Conforming
import Verif.Proofs.Conforming
import Verif.Props.Wire
import Verif.Model.Duplex
import Verif.Spec.Duplex
import Verif.Proofs.Duplex
import Verif.Props.Duplex
import Verif.Spec.Request
import Verif.Proofs.Request
import Verif.Props.Request
import Verif.Spec.Response
import Verif.Proofs.Response
import Verif.Props.Response
import Verif.Spec.Sent
import Verif.Proofs.Sent
import Verif.Props.Sent
import Verif.Props.Rejected
import Verif.Model.Iteration
import Verif.Spec.Iteration
import Verif.Proofs.Iteration
import Verif.Props.Iteration
import Verif.Model.StreamTask
import Verif.Spec.StreamTask
import Verif.Proofs.StreamTask
import Verif.Props.StreamTask
import Verif.Model.Instrumentor
import Verif.Spec.Instrumentor
import Verif.Proofs.Instrumentor
import Verif.Props.Instrumentor
import Verif.Props.Held
import Verif.Props.GenModule
import Verif.Props.Cleanup
import Verif.Props.StreamContext
import Verif.Props.Cancel
import Verif.Props.SpanContext
import Verif.Props.HeaderViews
import Verif.Props.ErrorLog
import Verif.Props.Attempts
import Verif.Props.TaskCancel
import Verif.Props.Alike
import Verif.Props.Twins
import Verif.Props.Codings
import Verif.Props.Observed
import Verif.Props.ClientCalls
import Verif.Props.Relay
import Verif.Props.StreamRelay
import Verif.Props.Detail
import Verif.Props.Drain
import Verif.Props.Refusals
import Verif.Props.Universal
import Verif.Props.Served
import Verif.Props.BadEnd
import Verif.Props.Interrupted
import Verif.Props.Codecs
import Verif.Props.EveryCase
import Verif.Props.Always
import Verif.Props.Forged
import Verif.Props.BadMessage
import Verif.Props.BadMetadata
import Verif.Props.BadRequest
import Verif.Props.CutRequests
import Verif.Props.ObservedKinds
import Verif.Props.AlikeDiffers
import Verif.Model.ClientObserved
import Verif.Spec.ClientObserved
import Verif.Proofs.ClientObserved
import Verif.Props.ClientObserved
import Verif.Props.TracedPair
import Verif.Props.TracedStreams
import Verif.Props.TracedKinds
import Verif.Props.TracedSpans
import Verif.Props.TracedSpanStreams
import Verif.Props.SpansOfKinds
import Verif.Spec.SpansOfKinds
import Verif.Props.TracedEarly
