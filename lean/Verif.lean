import Verif.Common.Bits
import Verif.Common.Bytes
import Verif.Common.ListAux
import Verif.Common.Mem
import Verif.Common.Outcome
import Verif.Adts.Model
import Verif.Adts.Props
import Verif.AudioDec.Model
import Verif.AudioDec.Props
import Verif.AudioEnc.Model
import Verif.AudioEnc.Props
import Verif.AudioMixer.Model
import Verif.AudioMixer.Spec
import Verif.AudioMixer.Gains
import Verif.AudioMixer.Level
import Verif.AudioMixer.Props
import Verif.AudioRing.Model
import Verif.AudioRing.Spec
import Verif.AudioRing.Lemmas
import Verif.AudioRing.Concurrent
import Verif.AudioRing.Examples
import Verif.AudioRing.Props
import Verif.AudioRing.Wrap
import Verif.BitStream.Model
import Verif.BitStream.Lemmas
import Verif.BitStream.Props
import Verif.Control.Model
import Verif.Control.Spec
import Verif.Control.Props
import Verif.Control.Report
import Verif.Control.Requests
import Verif.Control.Server
import Verif.Dash.Model
import Verif.Dash.Lemmas
import Verif.Dash.Audio
import Verif.Dash.Props
import Verif.DashTop.Model
import Verif.DashTop.Lemmas
import Verif.DashTop.More
import Verif.DashTop.Props
import Verif.Demux.Model
import Verif.Demux.Props
import Verif.Demux.Run
import Verif.Demux.Split
import Verif.Demux.Streams
import Verif.Encoder.Model
import Verif.Encoder.Config
import Verif.Encoder.Gop
import Verif.Encoder.Times
import Verif.Events.Model
import Verif.Events.Props
import Verif.FilterConn.Model
import Verif.FilterConn.Lemmas
import Verif.FilterConn.Props
import Verif.FilterConn.Steps
import Verif.FilterEvents.Model
import Verif.FilterEvents.Spec
import Verif.FilterEvents.Lemmas
import Verif.FilterEvents.Api
import Verif.FilterEvents.Deliver
import Verif.FilterEvents.Forms
import Verif.FilterEvents.Props
import Verif.FilterEvents.Session
import Verif.FilterSync.Model
import Verif.FilterSync.Lemmas
import Verif.FilterSync.Props
import Verif.Flow.Model
import Verif.Flow.Spec
import Verif.Flow.Lemmas
import Verif.Flow.Cases
import Verif.Flow.Drain
import Verif.Flow.Props
import Verif.FrameAlloc.Model
import Verif.FrameAlloc.Props
import Verif.FrameQueue.Model
import Verif.FrameQueue.Spec
import Verif.FrameQueue.Lemmas
import Verif.FrameQueue.Concurrent
import Verif.FrameQueue.Props
import Verif.Isoff.Model
import Verif.Isoff.Spec
import Verif.Isoff.Lemmas
import Verif.Isoff.Props
import Verif.Isoff.Segment
import Verif.Isoff.Standard
import Verif.Json.Model
import Verif.Json.Props
import Verif.JsonStream.Model
import Verif.JsonStream.Cut
import Verif.JsonStream.Props
import Verif.JsonTree.Model
import Verif.JsonTree.Spec
import Verif.JsonTree.Lemmas
import Verif.JsonTree.Cases
import Verif.JsonTree.Props
import Verif.JsonTree.Sim
import Verif.LinkRace.Model
import Verif.LinkRace.Spec
import Verif.LinkRace.Lemmas
import Verif.LinkRace.Cases
import Verif.LinkRace.Props
import Verif.Live.Model
import Verif.Live.Spec
import Verif.Live.Lemmas
import Verif.Live.Cases
import Verif.Live.Props
import Verif.Live.Publish
import Verif.Live.Run
import Verif.Manifest.Model
import Verif.Manifest.Spec
import Verif.Manifest.Lemmas
import Verif.Manifest.Cases
import Verif.Manifest.Names
import Verif.Manifest.Props
import Verif.Manifest.Stream
import Verif.Mpd.Model
import Verif.Mpd.Lemmas
import Verif.Mpd.Props
import Verif.Nalu.Model
import Verif.Nalu.Spec
import Verif.Nalu.Assembly
import Verif.Nalu.Props
import Verif.Names.Model
import Verif.Names.Props
import Verif.Net.Model
import Verif.Net.Spec
import Verif.Net.Lemmas
import Verif.Net.Cases
import Verif.Net.Ends
import Verif.Net.Props
import Verif.Net.Round
import Verif.NetStats.Model
import Verif.NetStats.Recv
import Verif.NetStats.Send
import Verif.NetStats.Timers
import Verif.Offer.Model
import Verif.Offer.Spec
import Verif.Offer.Aac
import Verif.Offer.Props
import Verif.Paths.Model
import Verif.Paths.Spec
import Verif.Paths.Lemmas
import Verif.Paths.Cases
import Verif.Paths.Net
import Verif.Paths.NetCases
import Verif.Paths.Props
import Verif.Paths.Rounds
import Verif.Pipeline.Model
import Verif.Pipeline.Spec
import Verif.Pipeline.Lemmas
import Verif.Pipeline.Props
import Verif.Pool.Model
import Verif.Pool.Lemmas
import Verif.Pool.Props
import Verif.QueueLife.Model
import Verif.QueueLife.Spec
import Verif.QueueLife.Lemmas
import Verif.QueueLife.Props
import Verif.Rbsp.Model
import Verif.Rbsp.Props
import Verif.ReaderDelay.Model
import Verif.ReaderDelay.Spec
import Verif.ReaderDelay.Props
import Verif.Record.Model
import Verif.Record.Begin
import Verif.Record.Init
import Verif.Record.Props
import Verif.Record.Received
import Verif.Record.Success
import Verif.RecordAudio.Model
import Verif.RecordAudio.Init
import Verif.RecordAudio.Props
import Verif.RecordAudio.Success
import Verif.Recv.Model
import Verif.Recv.Lemmas
import Verif.Recv.Props
import Verif.Relay.Model
import Verif.Relay.Chain
import Verif.Relay.Props
import Verif.Reports.Model
import Verif.Reports.Audio
import Verif.Reports.Dash
import Verif.Reports.Encoder
import Verif.Reports.Mixers
import Verif.Reports.Read
import Verif.Resampler.Model
import Verif.Resampler.Props
import Verif.Retire.Model
import Verif.Retire.Spec
import Verif.Retire.Lemmas
import Verif.Retire.Cases
import Verif.Retire.Props
import Verif.Rewire.Model
import Verif.Rewire.Spec
import Verif.Rewire.Lemmas
import Verif.Rewire.Calls
import Verif.Rewire.Cases
import Verif.Rewire.Props
import Verif.Rewire.Steps
import Verif.Sdp.Model
import Verif.Sdp.Spec
import Verif.Sdp.Lemmas
import Verif.Sdp.Parser
import Verif.Sdp.Props
import Verif.Sdp.Rename
import Verif.SeqNum.Model
import Verif.SeqNum.Props
import Verif.Sessions.Model
import Verif.Sessions.Lemmas
import Verif.Sessions.Live
import Verif.Sessions.Props
import Verif.SharedMem.Model
import Verif.SharedMem.Pictures
import Verif.SharedMem.Props
import Verif.SharedReader.Model
import Verif.SharedReader.Spec
import Verif.SharedReader.Lemmas
import Verif.SharedReader.Props
import Verif.Sink.Model
import Verif.Sink.Lemmas
import Verif.Sink.Mux
import Verif.Sink.Props
import Verif.Sink.Steps
import Verif.SlicedQueue.Model
import Verif.SlicedQueue.Spec
import Verif.SlicedQueue.Lemmas
import Verif.SlicedQueue.Props
import Verif.Sources.Model
import Verif.Sources.Extradata
import Verif.Sources.Loop
import Verif.Sources.Queue
import Verif.Sources.Sampler
import Verif.Sps.Model
import Verif.Sps.Spec
import Verif.Sps.Dims
import Verif.Sps.Props
import Verif.UltraGrid.Model
import Verif.UltraGrid.Props
import Verif.UltraGrid.Sink
import Verif.UltraGrid.Stream
import Verif.V4L.Model
import Verif.V4L.Announced
import Verif.V4L.Props
import Verif.VideoDec.Model
import Verif.VideoDec.Props
import Verif.VideoMixer.Model
import Verif.VideoMixer.Props
import Verif.Wired.Spec
import Verif.Wired.Lemmas
import Verif.Wired.Cases
import Verif.Wired.Props
import Verif.Axioms
