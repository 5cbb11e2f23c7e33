import Verif.Model.Go

/-!
# The descriptors of the agents written in Python

The bytes of the descriptors in the generated code of the agents written in Python, with which the nodes and agents of
the Go code exchange messages. They are as in `Verif.Model.RawDesc`.
-/

namespace Verif.PB

/-- packages/fetchai/protocols/acn/acn_pb2.py:17 -/
def acnPy : Bytes := [
  0x0a, 0x09, 0x61, 0x63, 0x6e, 0x2e, 0x70, 0x72, 0x6f, 0x74, 0x6f, 0x12, 0x12, 0x61, 0x65, 0x61,
  0x2e, 0x61, 0x65, 0x61, 0x2e, 0x61, 0x63, 0x6e, 0x2e, 0x76, 0x31, 0x5f, 0x30, 0x5f, 0x30, 0x22,
  0x92, 0x0b, 0x0a, 0x0a, 0x41, 0x63, 0x6e, 0x4d, 0x65, 0x73, 0x73, 0x61, 0x67, 0x65, 0x12, 0x50,
  0x0a, 0x0c, 0x61, 0x65, 0x61, 0x5f, 0x65, 0x6e, 0x76, 0x65, 0x6c, 0x6f, 0x70, 0x65, 0x18, 0x05,
  0x20, 0x01, 0x28, 0x0b, 0x32, 0x38, 0x2e, 0x61, 0x65, 0x61, 0x2e, 0x61, 0x65, 0x61, 0x2e, 0x61,
  0x63, 0x6e, 0x2e, 0x76, 0x31, 0x5f, 0x30, 0x5f, 0x30, 0x2e, 0x41, 0x63, 0x6e, 0x4d, 0x65, 0x73,
  0x73, 0x61, 0x67, 0x65, 0x2e, 0x41, 0x65, 0x61, 0x5f, 0x45, 0x6e, 0x76, 0x65, 0x6c, 0x6f, 0x70,
  0x65, 0x5f, 0x50, 0x65, 0x72, 0x66, 0x6f, 0x72, 0x6d, 0x61, 0x74, 0x69, 0x76, 0x65, 0x48, 0x00,
  0x12, 0x54, 0x0a, 0x0e, 0x6c, 0x6f, 0x6f, 0x6b, 0x75, 0x70, 0x5f, 0x72, 0x65, 0x71, 0x75, 0x65,
  0x73, 0x74, 0x18, 0x06, 0x20, 0x01, 0x28, 0x0b, 0x32, 0x3a, 0x2e, 0x61, 0x65, 0x61, 0x2e, 0x61,
  0x65, 0x61, 0x2e, 0x61, 0x63, 0x6e, 0x2e, 0x76, 0x31, 0x5f, 0x30, 0x5f, 0x30, 0x2e, 0x41, 0x63,
  0x6e, 0x4d, 0x65, 0x73, 0x73, 0x61, 0x67, 0x65, 0x2e, 0x4c, 0x6f, 0x6f, 0x6b, 0x75, 0x70, 0x5f,
  0x52, 0x65, 0x71, 0x75, 0x65, 0x73, 0x74, 0x5f, 0x50, 0x65, 0x72, 0x66, 0x6f, 0x72, 0x6d, 0x61,
  0x74, 0x69, 0x76, 0x65, 0x48, 0x00, 0x12, 0x56, 0x0a, 0x0f, 0x6c, 0x6f, 0x6f, 0x6b, 0x75, 0x70,
  0x5f, 0x72, 0x65, 0x73, 0x70, 0x6f, 0x6e, 0x73, 0x65, 0x18, 0x07, 0x20, 0x01, 0x28, 0x0b, 0x32,
  0x3b, 0x2e, 0x61, 0x65, 0x61, 0x2e, 0x61, 0x65, 0x61, 0x2e, 0x61, 0x63, 0x6e, 0x2e, 0x76, 0x31,
  0x5f, 0x30, 0x5f, 0x30, 0x2e, 0x41, 0x63, 0x6e, 0x4d, 0x65, 0x73, 0x73, 0x61, 0x67, 0x65, 0x2e,
  0x4c, 0x6f, 0x6f, 0x6b, 0x75, 0x70, 0x5f, 0x52, 0x65, 0x73, 0x70, 0x6f, 0x6e, 0x73, 0x65, 0x5f,
  0x50, 0x65, 0x72, 0x66, 0x6f, 0x72, 0x6d, 0x61, 0x74, 0x69, 0x76, 0x65, 0x48, 0x00, 0x12, 0x48,
  0x0a, 0x08, 0x72, 0x65, 0x67, 0x69, 0x73, 0x74, 0x65, 0x72, 0x18, 0x08, 0x20, 0x01, 0x28, 0x0b,
  0x32, 0x34, 0x2e, 0x61, 0x65, 0x61, 0x2e, 0x61, 0x65, 0x61, 0x2e, 0x61, 0x63, 0x6e, 0x2e, 0x76,
  0x31, 0x5f, 0x30, 0x5f, 0x30, 0x2e, 0x41, 0x63, 0x6e, 0x4d, 0x65, 0x73, 0x73, 0x61, 0x67, 0x65,
  0x2e, 0x52, 0x65, 0x67, 0x69, 0x73, 0x74, 0x65, 0x72, 0x5f, 0x50, 0x65, 0x72, 0x66, 0x6f, 0x72,
  0x6d, 0x61, 0x74, 0x69, 0x76, 0x65, 0x48, 0x00, 0x12, 0x44, 0x0a, 0x06, 0x73, 0x74, 0x61, 0x74,
  0x75, 0x73, 0x18, 0x09, 0x20, 0x01, 0x28, 0x0b, 0x32, 0x32, 0x2e, 0x61, 0x65, 0x61, 0x2e, 0x61,
  0x65, 0x61, 0x2e, 0x61, 0x63, 0x6e, 0x2e, 0x76, 0x31, 0x5f, 0x30, 0x5f, 0x30, 0x2e, 0x41, 0x63,
  0x6e, 0x4d, 0x65, 0x73, 0x73, 0x61, 0x67, 0x65, 0x2e, 0x53, 0x74, 0x61, 0x74, 0x75, 0x73, 0x5f,
  0x50, 0x65, 0x72, 0x66, 0x6f, 0x72, 0x6d, 0x61, 0x74, 0x69, 0x76, 0x65, 0x48, 0x00, 0x1a, 0xac,
  0x01, 0x0a, 0x0b, 0x41, 0x67, 0x65, 0x6e, 0x74, 0x52, 0x65, 0x63, 0x6f, 0x72, 0x64, 0x12, 0x12,
  0x0a, 0x0a, 0x73, 0x65, 0x72, 0x76, 0x69, 0x63, 0x65, 0x5f, 0x69, 0x64, 0x18, 0x01, 0x20, 0x01,
  0x28, 0x09, 0x12, 0x11, 0x0a, 0x09, 0x6c, 0x65, 0x64, 0x67, 0x65, 0x72, 0x5f, 0x69, 0x64, 0x18,
  0x02, 0x20, 0x01, 0x28, 0x09, 0x12, 0x0f, 0x0a, 0x07, 0x61, 0x64, 0x64, 0x72, 0x65, 0x73, 0x73,
  0x18, 0x03, 0x20, 0x01, 0x28, 0x09, 0x12, 0x12, 0x0a, 0x0a, 0x70, 0x75, 0x62, 0x6c, 0x69, 0x63,
  0x5f, 0x6b, 0x65, 0x79, 0x18, 0x04, 0x20, 0x01, 0x28, 0x09, 0x12, 0x17, 0x0a, 0x0f, 0x70, 0x65,
  0x65, 0x72, 0x5f, 0x70, 0x75, 0x62, 0x6c, 0x69, 0x63, 0x5f, 0x6b, 0x65, 0x79, 0x18, 0x05, 0x20,
  0x01, 0x28, 0x09, 0x12, 0x11, 0x0a, 0x09, 0x73, 0x69, 0x67, 0x6e, 0x61, 0x74, 0x75, 0x72, 0x65,
  0x18, 0x06, 0x20, 0x01, 0x28, 0x09, 0x12, 0x12, 0x0a, 0x0a, 0x6e, 0x6f, 0x74, 0x5f, 0x62, 0x65,
  0x66, 0x6f, 0x72, 0x65, 0x18, 0x07, 0x20, 0x01, 0x28, 0x09, 0x12, 0x11, 0x0a, 0x09, 0x6e, 0x6f,
  0x74, 0x5f, 0x61, 0x66, 0x74, 0x65, 0x72, 0x18, 0x08, 0x20, 0x01, 0x28, 0x09, 0x1a, 0x92, 0x03,
  0x0a, 0x0a, 0x53, 0x74, 0x61, 0x74, 0x75, 0x73, 0x42, 0x6f, 0x64, 0x79, 0x12, 0x46, 0x0a, 0x04,
  0x63, 0x6f, 0x64, 0x65, 0x18, 0x01, 0x20, 0x01, 0x28, 0x0e, 0x32, 0x38, 0x2e, 0x61, 0x65, 0x61,
  0x2e, 0x61, 0x65, 0x61, 0x2e, 0x61, 0x63, 0x6e, 0x2e, 0x76, 0x31, 0x5f, 0x30, 0x5f, 0x30, 0x2e,
  0x41, 0x63, 0x6e, 0x4d, 0x65, 0x73, 0x73, 0x61, 0x67, 0x65, 0x2e, 0x53, 0x74, 0x61, 0x74, 0x75,
  0x73, 0x42, 0x6f, 0x64, 0x79, 0x2e, 0x53, 0x74, 0x61, 0x74, 0x75, 0x73, 0x43, 0x6f, 0x64, 0x65,
  0x45, 0x6e, 0x75, 0x6d, 0x12, 0x0c, 0x0a, 0x04, 0x6d, 0x73, 0x67, 0x73, 0x18, 0x02, 0x20, 0x03,
  0x28, 0x09, 0x22, 0xad, 0x02, 0x0a, 0x0e, 0x53, 0x74, 0x61, 0x74, 0x75, 0x73, 0x43, 0x6f, 0x64,
  0x65, 0x45, 0x6e, 0x75, 0x6d, 0x12, 0x0b, 0x0a, 0x07, 0x53, 0x55, 0x43, 0x43, 0x45, 0x53, 0x53,
  0x10, 0x00, 0x12, 0x1d, 0x0a, 0x19, 0x45, 0x52, 0x52, 0x4f, 0x52, 0x5f, 0x55, 0x4e, 0x53, 0x55,
  0x50, 0x50, 0x4f, 0x52, 0x54, 0x45, 0x44, 0x5f, 0x56, 0x45, 0x52, 0x53, 0x49, 0x4f, 0x4e, 0x10,
  0x01, 0x12, 0x1c, 0x0a, 0x18, 0x45, 0x52, 0x52, 0x4f, 0x52, 0x5f, 0x55, 0x4e, 0x45, 0x58, 0x50,
  0x45, 0x43, 0x54, 0x45, 0x44, 0x5f, 0x50, 0x41, 0x59, 0x4c, 0x4f, 0x41, 0x44, 0x10, 0x02, 0x12,
  0x11, 0x0a, 0x0d, 0x45, 0x52, 0x52, 0x4f, 0x52, 0x5f, 0x47, 0x45, 0x4e, 0x45, 0x52, 0x49, 0x43,
  0x10, 0x03, 0x12, 0x10, 0x0a, 0x0c, 0x45, 0x52, 0x52, 0x4f, 0x52, 0x5f, 0x44, 0x45, 0x43, 0x4f,
  0x44, 0x45, 0x10, 0x04, 0x12, 0x1d, 0x0a, 0x19, 0x45, 0x52, 0x52, 0x4f, 0x52, 0x5f, 0x57, 0x52,
  0x4f, 0x4e, 0x47, 0x5f, 0x41, 0x47, 0x45, 0x4e, 0x54, 0x5f, 0x41, 0x44, 0x44, 0x52, 0x45, 0x53,
  0x53, 0x10, 0x0a, 0x12, 0x1a, 0x0a, 0x16, 0x45, 0x52, 0x52, 0x4f, 0x52, 0x5f, 0x57, 0x52, 0x4f,
  0x4e, 0x47, 0x5f, 0x50, 0x55, 0x42, 0x4c, 0x49, 0x43, 0x5f, 0x4b, 0x45, 0x59, 0x10, 0x0b, 0x12,
  0x17, 0x0a, 0x13, 0x45, 0x52, 0x52, 0x4f, 0x52, 0x5f, 0x49, 0x4e, 0x56, 0x41, 0x4c, 0x49, 0x44,
  0x5f, 0x50, 0x52, 0x4f, 0x4f, 0x46, 0x10, 0x0c, 0x12, 0x1c, 0x0a, 0x18, 0x45, 0x52, 0x52, 0x4f,
  0x52, 0x5f, 0x55, 0x4e, 0x53, 0x55, 0x50, 0x50, 0x4f, 0x52, 0x54, 0x45, 0x44, 0x5f, 0x4c, 0x45,
  0x44, 0x47, 0x45, 0x52, 0x10, 0x0d, 0x12, 0x1f, 0x0a, 0x1b, 0x45, 0x52, 0x52, 0x4f, 0x52, 0x5f,
  0x55, 0x4e, 0x4b, 0x4e, 0x4f, 0x57, 0x4e, 0x5f, 0x41, 0x47, 0x45, 0x4e, 0x54, 0x5f, 0x41, 0x44,
  0x44, 0x52, 0x45, 0x53, 0x53, 0x10, 0x14, 0x12, 0x19, 0x0a, 0x15, 0x45, 0x52, 0x52, 0x4f, 0x52,
  0x5f, 0x41, 0x47, 0x45, 0x4e, 0x54, 0x5f, 0x4e, 0x4f, 0x54, 0x5f, 0x52, 0x45, 0x41, 0x44, 0x59,
  0x10, 0x15, 0x1a, 0x53, 0x0a, 0x15, 0x52, 0x65, 0x67, 0x69, 0x73, 0x74, 0x65, 0x72, 0x5f, 0x50,
  0x65, 0x72, 0x66, 0x6f, 0x72, 0x6d, 0x61, 0x74, 0x69, 0x76, 0x65, 0x12, 0x3a, 0x0a, 0x06, 0x72,
  0x65, 0x63, 0x6f, 0x72, 0x64, 0x18, 0x01, 0x20, 0x01, 0x28, 0x0b, 0x32, 0x2a, 0x2e, 0x61, 0x65,
  0x61, 0x2e, 0x61, 0x65, 0x61, 0x2e, 0x61, 0x63, 0x6e, 0x2e, 0x76, 0x31, 0x5f, 0x30, 0x5f, 0x30,
  0x2e, 0x41, 0x63, 0x6e, 0x4d, 0x65, 0x73, 0x73, 0x61, 0x67, 0x65, 0x2e, 0x41, 0x67, 0x65, 0x6e,
  0x74, 0x52, 0x65, 0x63, 0x6f, 0x72, 0x64, 0x1a, 0x34, 0x0a, 0x1b, 0x4c, 0x6f, 0x6f, 0x6b, 0x75,
  0x70, 0x5f, 0x52, 0x65, 0x71, 0x75, 0x65, 0x73, 0x74, 0x5f, 0x50, 0x65, 0x72, 0x66, 0x6f, 0x72,
  0x6d, 0x61, 0x74, 0x69, 0x76, 0x65, 0x12, 0x15, 0x0a, 0x0d, 0x61, 0x67, 0x65, 0x6e, 0x74, 0x5f,
  0x61, 0x64, 0x64, 0x72, 0x65, 0x73, 0x73, 0x18, 0x01, 0x20, 0x01, 0x28, 0x09, 0x1a, 0x5a, 0x0a,
  0x1c, 0x4c, 0x6f, 0x6f, 0x6b, 0x75, 0x70, 0x5f, 0x52, 0x65, 0x73, 0x70, 0x6f, 0x6e, 0x73, 0x65,
  0x5f, 0x50, 0x65, 0x72, 0x66, 0x6f, 0x72, 0x6d, 0x61, 0x74, 0x69, 0x76, 0x65, 0x12, 0x3a, 0x0a,
  0x06, 0x72, 0x65, 0x63, 0x6f, 0x72, 0x64, 0x18, 0x01, 0x20, 0x01, 0x28, 0x0b, 0x32, 0x2a, 0x2e,
  0x61, 0x65, 0x61, 0x2e, 0x61, 0x65, 0x61, 0x2e, 0x61, 0x63, 0x6e, 0x2e, 0x76, 0x31, 0x5f, 0x30,
  0x5f, 0x30, 0x2e, 0x41, 0x63, 0x6e, 0x4d, 0x65, 0x73, 0x73, 0x61, 0x67, 0x65, 0x2e, 0x41, 0x67,
  0x65, 0x6e, 0x74, 0x52, 0x65, 0x63, 0x6f, 0x72, 0x64, 0x1a, 0x69, 0x0a, 0x19, 0x41, 0x65, 0x61,
  0x5f, 0x45, 0x6e, 0x76, 0x65, 0x6c, 0x6f, 0x70, 0x65, 0x5f, 0x50, 0x65, 0x72, 0x66, 0x6f, 0x72,
  0x6d, 0x61, 0x74, 0x69, 0x76, 0x65, 0x12, 0x10, 0x0a, 0x08, 0x65, 0x6e, 0x76, 0x65, 0x6c, 0x6f,
  0x70, 0x65, 0x18, 0x01, 0x20, 0x01, 0x28, 0x0c, 0x12, 0x3a, 0x0a, 0x06, 0x72, 0x65, 0x63, 0x6f,
  0x72, 0x64, 0x18, 0x02, 0x20, 0x01, 0x28, 0x0b, 0x32, 0x2a, 0x2e, 0x61, 0x65, 0x61, 0x2e, 0x61,
  0x65, 0x61, 0x2e, 0x61, 0x63, 0x6e, 0x2e, 0x76, 0x31, 0x5f, 0x30, 0x5f, 0x30, 0x2e, 0x41, 0x63,
  0x6e, 0x4d, 0x65, 0x73, 0x73, 0x61, 0x67, 0x65, 0x2e, 0x41, 0x67, 0x65, 0x6e, 0x74, 0x52, 0x65,
  0x63, 0x6f, 0x72, 0x64, 0x1a, 0x4e, 0x0a, 0x13, 0x53, 0x74, 0x61, 0x74, 0x75, 0x73, 0x5f, 0x50,
  0x65, 0x72, 0x66, 0x6f, 0x72, 0x6d, 0x61, 0x74, 0x69, 0x76, 0x65, 0x12, 0x37, 0x0a, 0x04, 0x62,
  0x6f, 0x64, 0x79, 0x18, 0x01, 0x20, 0x01, 0x28, 0x0b, 0x32, 0x29, 0x2e, 0x61, 0x65, 0x61, 0x2e,
  0x61, 0x65, 0x61, 0x2e, 0x61, 0x63, 0x6e, 0x2e, 0x76, 0x31, 0x5f, 0x30, 0x5f, 0x30, 0x2e, 0x41,
  0x63, 0x6e, 0x4d, 0x65, 0x73, 0x73, 0x61, 0x67, 0x65, 0x2e, 0x53, 0x74, 0x61, 0x74, 0x75, 0x73,
  0x42, 0x6f, 0x64, 0x79, 0x42, 0x0e, 0x0a, 0x0c, 0x70, 0x65, 0x72, 0x66, 0x6f, 0x72, 0x6d, 0x61,
  0x74, 0x69, 0x76, 0x65, 0x62, 0x06, 0x70, 0x72, 0x6f, 0x74, 0x6f, 0x33]

/-- aea/mail/base_pb2.py:24 -/
def basePy : Bytes := [
  0x0a, 0x0a, 0x62, 0x61, 0x73, 0x65, 0x2e, 0x70, 0x72, 0x6f, 0x74, 0x6f, 0x12, 0x0f, 0x61, 0x65,
  0x61, 0x2e, 0x62, 0x61, 0x73, 0x65, 0x2e, 0x76, 0x30, 0x5f, 0x31, 0x5f, 0x30, 0x1a, 0x1c, 0x67,
  0x6f, 0x6f, 0x67, 0x6c, 0x65, 0x2f, 0x70, 0x72, 0x6f, 0x74, 0x6f, 0x62, 0x75, 0x66, 0x2f, 0x73,
  0x74, 0x72, 0x75, 0x63, 0x74, 0x2e, 0x70, 0x72, 0x6f, 0x74, 0x6f, 0x22, 0x90, 0x01, 0x0a, 0x0f,
  0x44, 0x69, 0x61, 0x6c, 0x6f, 0x67, 0x75, 0x65, 0x4d, 0x65, 0x73, 0x73, 0x61, 0x67, 0x65, 0x12,
  0x12, 0x0a, 0x0a, 0x6d, 0x65, 0x73, 0x73, 0x61, 0x67, 0x65, 0x5f, 0x69, 0x64, 0x18, 0x01, 0x20,
  0x01, 0x28, 0x05, 0x12, 0x22, 0x0a, 0x1a, 0x64, 0x69, 0x61, 0x6c, 0x6f, 0x67, 0x75, 0x65, 0x5f,
  0x73, 0x74, 0x61, 0x72, 0x74, 0x65, 0x72, 0x5f, 0x72, 0x65, 0x66, 0x65, 0x72, 0x65, 0x6e, 0x63,
  0x65, 0x18, 0x02, 0x20, 0x01, 0x28, 0x09, 0x12, 0x24, 0x0a, 0x1c, 0x64, 0x69, 0x61, 0x6c, 0x6f,
  0x67, 0x75, 0x65, 0x5f, 0x72, 0x65, 0x73, 0x70, 0x6f, 0x6e, 0x64, 0x65, 0x72, 0x5f, 0x72, 0x65,
  0x66, 0x65, 0x72, 0x65, 0x6e, 0x63, 0x65, 0x18, 0x03, 0x20, 0x01, 0x28, 0x09, 0x12, 0x0e, 0x0a,
  0x06, 0x74, 0x61, 0x72, 0x67, 0x65, 0x74, 0x18, 0x04, 0x20, 0x01, 0x28, 0x05, 0x12, 0x0f, 0x0a,
  0x07, 0x63, 0x6f, 0x6e, 0x74, 0x65, 0x6e, 0x74, 0x18, 0x05, 0x20, 0x01, 0x28, 0x0c, 0x22, 0x7b,
  0x0a, 0x07, 0x4d, 0x65, 0x73, 0x73, 0x61, 0x67, 0x65, 0x12, 0x27, 0x0a, 0x04, 0x62, 0x6f, 0x64,
  0x79, 0x18, 0x01, 0x20, 0x01, 0x28, 0x0b, 0x32, 0x17, 0x2e, 0x67, 0x6f, 0x6f, 0x67, 0x6c, 0x65,
  0x2e, 0x70, 0x72, 0x6f, 0x74, 0x6f, 0x62, 0x75, 0x66, 0x2e, 0x53, 0x74, 0x72, 0x75, 0x63, 0x74,
  0x48, 0x00, 0x12, 0x3c, 0x0a, 0x10, 0x64, 0x69, 0x61, 0x6c, 0x6f, 0x67, 0x75, 0x65, 0x5f, 0x6d,
  0x65, 0x73, 0x73, 0x61, 0x67, 0x65, 0x18, 0x02, 0x20, 0x01, 0x28, 0x0b, 0x32, 0x20, 0x2e, 0x61,
  0x65, 0x61, 0x2e, 0x62, 0x61, 0x73, 0x65, 0x2e, 0x76, 0x30, 0x5f, 0x31, 0x5f, 0x30, 0x2e, 0x44,
  0x69, 0x61, 0x6c, 0x6f, 0x67, 0x75, 0x65, 0x4d, 0x65, 0x73, 0x73, 0x61, 0x67, 0x65, 0x48, 0x00,
  0x42, 0x09, 0x0a, 0x07, 0x6d, 0x65, 0x73, 0x73, 0x61, 0x67, 0x65, 0x22, 0x59, 0x0a, 0x08, 0x45,
  0x6e, 0x76, 0x65, 0x6c, 0x6f, 0x70, 0x65, 0x12, 0x0a, 0x0a, 0x02, 0x74, 0x6f, 0x18, 0x01, 0x20,
  0x01, 0x28, 0x09, 0x12, 0x0e, 0x0a, 0x06, 0x73, 0x65, 0x6e, 0x64, 0x65, 0x72, 0x18, 0x02, 0x20,
  0x01, 0x28, 0x09, 0x12, 0x13, 0x0a, 0x0b, 0x70, 0x72, 0x6f, 0x74, 0x6f, 0x63, 0x6f, 0x6c, 0x5f,
  0x69, 0x64, 0x18, 0x03, 0x20, 0x01, 0x28, 0x09, 0x12, 0x0f, 0x0a, 0x07, 0x6d, 0x65, 0x73, 0x73,
  0x61, 0x67, 0x65, 0x18, 0x04, 0x20, 0x01, 0x28, 0x0c, 0x12, 0x0b, 0x0a, 0x03, 0x75, 0x72, 0x69,
  0x18, 0x05, 0x20, 0x01, 0x28, 0x09, 0x62, 0x06, 0x70, 0x72, 0x6f, 0x74, 0x6f, 0x33]

/-- aea/helpers/search/models_pb2.py:21 -/
def searchPy : Bytes := [
  0x0a, 0x0c, 0x6d, 0x6f, 0x64, 0x65, 0x6c, 0x73, 0x2e, 0x70, 0x72, 0x6f, 0x74, 0x6f, 0x12, 0x19,
  0x61, 0x65, 0x61, 0x2e, 0x68, 0x65, 0x6c, 0x70, 0x65, 0x72, 0x73, 0x2e, 0x73, 0x65, 0x61, 0x72,
  0x63, 0x68, 0x2e, 0x6d, 0x6f, 0x64, 0x65, 0x6c, 0x73, 0x22, 0xc1, 0x19, 0x0a, 0x05, 0x51, 0x75,
  0x65, 0x72, 0x79, 0x1a, 0xc0, 0x01, 0x0a, 0x09, 0x41, 0x74, 0x74, 0x72, 0x69, 0x62, 0x75, 0x74,
  0x65, 0x12, 0x0c, 0x0a, 0x04, 0x6e, 0x61, 0x6d, 0x65, 0x18, 0x01, 0x20, 0x01, 0x28, 0x09, 0x12,
  0x3d, 0x0a, 0x04, 0x74, 0x79, 0x70, 0x65, 0x18, 0x02, 0x20, 0x01, 0x28, 0x0e, 0x32, 0x2f, 0x2e,
  0x61, 0x65, 0x61, 0x2e, 0x68, 0x65, 0x6c, 0x70, 0x65, 0x72, 0x73, 0x2e, 0x73, 0x65, 0x61, 0x72,
  0x63, 0x68, 0x2e, 0x6d, 0x6f, 0x64, 0x65, 0x6c, 0x73, 0x2e, 0x51, 0x75, 0x65, 0x72, 0x79, 0x2e,
  0x41, 0x74, 0x74, 0x72, 0x69, 0x62, 0x75, 0x74, 0x65, 0x2e, 0x54, 0x79, 0x70, 0x65, 0x12, 0x10,
  0x0a, 0x08, 0x72, 0x65, 0x71, 0x75, 0x69, 0x72, 0x65, 0x64, 0x18, 0x03, 0x20, 0x01, 0x28, 0x08,
  0x12, 0x13, 0x0a, 0x0b, 0x64, 0x65, 0x73, 0x63, 0x72, 0x69, 0x70, 0x74, 0x69, 0x6f, 0x6e, 0x18,
  0x04, 0x20, 0x01, 0x28, 0x09, 0x22, 0x3f, 0x0a, 0x04, 0x54, 0x79, 0x70, 0x65, 0x12, 0x0a, 0x0a,
  0x06, 0x44, 0x4f, 0x55, 0x42, 0x4c, 0x45, 0x10, 0x00, 0x12, 0x07, 0x0a, 0x03, 0x49, 0x4e, 0x54,
  0x10, 0x01, 0x12, 0x08, 0x0a, 0x04, 0x42, 0x4f, 0x4f, 0x4c, 0x10, 0x02, 0x12, 0x0a, 0x0a, 0x06,
  0x53, 0x54, 0x52, 0x49, 0x4e, 0x47, 0x10, 0x03, 0x12, 0x0c, 0x0a, 0x08, 0x4c, 0x4f, 0x43, 0x41,
  0x54, 0x49, 0x4f, 0x4e, 0x10, 0x04, 0x1a, 0x6e, 0x0a, 0x09, 0x44, 0x61, 0x74, 0x61, 0x4d, 0x6f,
  0x64, 0x65, 0x6c, 0x12, 0x0c, 0x0a, 0x04, 0x6e, 0x61, 0x6d, 0x65, 0x18, 0x01, 0x20, 0x01, 0x28,
  0x09, 0x12, 0x3e, 0x0a, 0x0a, 0x61, 0x74, 0x74, 0x72, 0x69, 0x62, 0x75, 0x74, 0x65, 0x73, 0x18,
  0x02, 0x20, 0x03, 0x28, 0x0b, 0x32, 0x2a, 0x2e, 0x61, 0x65, 0x61, 0x2e, 0x68, 0x65, 0x6c, 0x70,
  0x65, 0x72, 0x73, 0x2e, 0x73, 0x65, 0x61, 0x72, 0x63, 0x68, 0x2e, 0x6d, 0x6f, 0x64, 0x65, 0x6c,
  0x73, 0x2e, 0x51, 0x75, 0x65, 0x72, 0x79, 0x2e, 0x41, 0x74, 0x74, 0x72, 0x69, 0x62, 0x75, 0x74,
  0x65, 0x12, 0x13, 0x0a, 0x0b, 0x64, 0x65, 0x73, 0x63, 0x72, 0x69, 0x70, 0x74, 0x69, 0x6f, 0x6e,
  0x18, 0x03, 0x20, 0x01, 0x28, 0x09, 0x1a, 0x24, 0x0a, 0x08, 0x4c, 0x6f, 0x63, 0x61, 0x74, 0x69,
  0x6f, 0x6e, 0x12, 0x0b, 0x0a, 0x03, 0x6c, 0x6f, 0x6e, 0x18, 0x01, 0x20, 0x01, 0x28, 0x01, 0x12,
  0x0b, 0x0a, 0x03, 0x6c, 0x61, 0x74, 0x18, 0x02, 0x20, 0x01, 0x28, 0x01, 0x1a, 0x99, 0x01, 0x0a,
  0x05, 0x56, 0x61, 0x6c, 0x75, 0x65, 0x12, 0x10, 0x0a, 0x06, 0x73, 0x74, 0x72, 0x69, 0x6e, 0x67,
  0x18, 0x01, 0x20, 0x01, 0x28, 0x09, 0x48, 0x00, 0x12, 0x10, 0x0a, 0x06, 0x64, 0x6f, 0x75, 0x62,
  0x6c, 0x65, 0x18, 0x02, 0x20, 0x01, 0x28, 0x01, 0x48, 0x00, 0x12, 0x11, 0x0a, 0x07, 0x62, 0x6f,
  0x6f, 0x6c, 0x65, 0x61, 0x6e, 0x18, 0x03, 0x20, 0x01, 0x28, 0x08, 0x48, 0x00, 0x12, 0x11, 0x0a,
  0x07, 0x69, 0x6e, 0x74, 0x65, 0x67, 0x65, 0x72, 0x18, 0x04, 0x20, 0x01, 0x28, 0x03, 0x48, 0x00,
  0x12, 0x3d, 0x0a, 0x08, 0x6c, 0x6f, 0x63, 0x61, 0x74, 0x69, 0x6f, 0x6e, 0x18, 0x05, 0x20, 0x01,
  0x28, 0x0b, 0x32, 0x29, 0x2e, 0x61, 0x65, 0x61, 0x2e, 0x68, 0x65, 0x6c, 0x70, 0x65, 0x72, 0x73,
  0x2e, 0x73, 0x65, 0x61, 0x72, 0x63, 0x68, 0x2e, 0x6d, 0x6f, 0x64, 0x65, 0x6c, 0x73, 0x2e, 0x51,
  0x75, 0x65, 0x72, 0x79, 0x2e, 0x4c, 0x6f, 0x63, 0x61, 0x74, 0x69, 0x6f, 0x6e, 0x48, 0x00, 0x42,
  0x07, 0x0a, 0x05, 0x76, 0x61, 0x6c, 0x75, 0x65, 0x1a, 0x4e, 0x0a, 0x08, 0x4b, 0x65, 0x79, 0x56,
  0x61, 0x6c, 0x75, 0x65, 0x12, 0x0b, 0x0a, 0x03, 0x6b, 0x65, 0x79, 0x18, 0x01, 0x20, 0x01, 0x28,
  0x09, 0x12, 0x35, 0x0a, 0x05, 0x76, 0x61, 0x6c, 0x75, 0x65, 0x18, 0x02, 0x20, 0x01, 0x28, 0x0b,
  0x32, 0x26, 0x2e, 0x61, 0x65, 0x61, 0x2e, 0x68, 0x65, 0x6c, 0x70, 0x65, 0x72, 0x73, 0x2e, 0x73,
  0x65, 0x61, 0x72, 0x63, 0x68, 0x2e, 0x6d, 0x6f, 0x64, 0x65, 0x6c, 0x73, 0x2e, 0x51, 0x75, 0x65,
  0x72, 0x79, 0x2e, 0x56, 0x61, 0x6c, 0x75, 0x65, 0x1a, 0x80, 0x01, 0x0a, 0x08, 0x49, 0x6e, 0x73,
  0x74, 0x61, 0x6e, 0x63, 0x65, 0x12, 0x39, 0x0a, 0x05, 0x6d, 0x6f, 0x64, 0x65, 0x6c, 0x18, 0x01,
  0x20, 0x01, 0x28, 0x0b, 0x32, 0x2a, 0x2e, 0x61, 0x65, 0x61, 0x2e, 0x68, 0x65, 0x6c, 0x70, 0x65,
  0x72, 0x73, 0x2e, 0x73, 0x65, 0x61, 0x72, 0x63, 0x68, 0x2e, 0x6d, 0x6f, 0x64, 0x65, 0x6c, 0x73,
  0x2e, 0x51, 0x75, 0x65, 0x72, 0x79, 0x2e, 0x44, 0x61, 0x74, 0x61, 0x4d, 0x6f, 0x64, 0x65, 0x6c,
  0x12, 0x39, 0x0a, 0x06, 0x76, 0x61, 0x6c, 0x75, 0x65, 0x73, 0x18, 0x02, 0x20, 0x03, 0x28, 0x0b,
  0x32, 0x29, 0x2e, 0x61, 0x65, 0x61, 0x2e, 0x68, 0x65, 0x6c, 0x70, 0x65, 0x72, 0x73, 0x2e, 0x73,
  0x65, 0x61, 0x72, 0x63, 0x68, 0x2e, 0x6d, 0x6f, 0x64, 0x65, 0x6c, 0x73, 0x2e, 0x51, 0x75, 0x65,
  0x72, 0x79, 0x2e, 0x4b, 0x65, 0x79, 0x56, 0x61, 0x6c, 0x75, 0x65, 0x1a, 0x2b, 0x0a, 0x0a, 0x53,
  0x74, 0x72, 0x69, 0x6e, 0x67, 0x50, 0x61, 0x69, 0x72, 0x12, 0x0d, 0x0a, 0x05, 0x66, 0x69, 0x72,
  0x73, 0x74, 0x18, 0x01, 0x20, 0x01, 0x28, 0x09, 0x12, 0x0e, 0x0a, 0x06, 0x73, 0x65, 0x63, 0x6f,
  0x6e, 0x64, 0x18, 0x02, 0x20, 0x01, 0x28, 0x09, 0x1a, 0x28, 0x0a, 0x07, 0x49, 0x6e, 0x74, 0x50,
  0x61, 0x69, 0x72, 0x12, 0x0d, 0x0a, 0x05, 0x66, 0x69, 0x72, 0x73, 0x74, 0x18, 0x01, 0x20, 0x01,
  0x28, 0x03, 0x12, 0x0e, 0x0a, 0x06, 0x73, 0x65, 0x63, 0x6f, 0x6e, 0x64, 0x18, 0x02, 0x20, 0x01,
  0x28, 0x03, 0x1a, 0x2b, 0x0a, 0x0a, 0x44, 0x6f, 0x75, 0x62, 0x6c, 0x65, 0x50, 0x61, 0x69, 0x72,
  0x12, 0x0d, 0x0a, 0x05, 0x66, 0x69, 0x72, 0x73, 0x74, 0x18, 0x01, 0x20, 0x01, 0x28, 0x01, 0x12,
  0x0e, 0x0a, 0x06, 0x73, 0x65, 0x63, 0x6f, 0x6e, 0x64, 0x18, 0x02, 0x20, 0x01, 0x28, 0x01, 0x1a,
  0x83, 0x01, 0x0a, 0x0c, 0x4c, 0x6f, 0x63, 0x61, 0x74, 0x69, 0x6f, 0x6e, 0x50, 0x61, 0x69, 0x72,
  0x12, 0x38, 0x0a, 0x05, 0x66, 0x69, 0x72, 0x73, 0x74, 0x18, 0x01, 0x20, 0x01, 0x28, 0x0b, 0x32,
  0x29, 0x2e, 0x61, 0x65, 0x61, 0x2e, 0x68, 0x65, 0x6c, 0x70, 0x65, 0x72, 0x73, 0x2e, 0x73, 0x65,
  0x61, 0x72, 0x63, 0x68, 0x2e, 0x6d, 0x6f, 0x64, 0x65, 0x6c, 0x73, 0x2e, 0x51, 0x75, 0x65, 0x72,
  0x79, 0x2e, 0x4c, 0x6f, 0x63, 0x61, 0x74, 0x69, 0x6f, 0x6e, 0x12, 0x39, 0x0a, 0x06, 0x73, 0x65,
  0x63, 0x6f, 0x6e, 0x64, 0x18, 0x02, 0x20, 0x01, 0x28, 0x0b, 0x32, 0x29, 0x2e, 0x61, 0x65, 0x61,
  0x2e, 0x68, 0x65, 0x6c, 0x70, 0x65, 0x72, 0x73, 0x2e, 0x73, 0x65, 0x61, 0x72, 0x63, 0x68, 0x2e,
  0x6d, 0x6f, 0x64, 0x65, 0x6c, 0x73, 0x2e, 0x51, 0x75, 0x65, 0x72, 0x79, 0x2e, 0x4c, 0x6f, 0x63,
  0x61, 0x74, 0x69, 0x6f, 0x6e, 0x1a, 0xa1, 0x02, 0x0a, 0x05, 0x52, 0x61, 0x6e, 0x67, 0x65, 0x12,
  0x42, 0x0a, 0x0b, 0x73, 0x74, 0x72, 0x69, 0x6e, 0x67, 0x5f, 0x70, 0x61, 0x69, 0x72, 0x18, 0x01,
  0x20, 0x01, 0x28, 0x0b, 0x32, 0x2b, 0x2e, 0x61, 0x65, 0x61, 0x2e, 0x68, 0x65, 0x6c, 0x70, 0x65,
  0x72, 0x73, 0x2e, 0x73, 0x65, 0x61, 0x72, 0x63, 0x68, 0x2e, 0x6d, 0x6f, 0x64, 0x65, 0x6c, 0x73,
  0x2e, 0x51, 0x75, 0x65, 0x72, 0x79, 0x2e, 0x53, 0x74, 0x72, 0x69, 0x6e, 0x67, 0x50, 0x61, 0x69,
  0x72, 0x48, 0x00, 0x12, 0x40, 0x0a, 0x0c, 0x69, 0x6e, 0x74, 0x65, 0x67, 0x65, 0x72, 0x5f, 0x70,
  0x61, 0x69, 0x72, 0x18, 0x02, 0x20, 0x01, 0x28, 0x0b, 0x32, 0x28, 0x2e, 0x61, 0x65, 0x61, 0x2e,
  0x68, 0x65, 0x6c, 0x70, 0x65, 0x72, 0x73, 0x2e, 0x73, 0x65, 0x61, 0x72, 0x63, 0x68, 0x2e, 0x6d,
  0x6f, 0x64, 0x65, 0x6c, 0x73, 0x2e, 0x51, 0x75, 0x65, 0x72, 0x79, 0x2e, 0x49, 0x6e, 0x74, 0x50,
  0x61, 0x69, 0x72, 0x48, 0x00, 0x12, 0x42, 0x0a, 0x0b, 0x64, 0x6f, 0x75, 0x62, 0x6c, 0x65, 0x5f,
  0x70, 0x61, 0x69, 0x72, 0x18, 0x03, 0x20, 0x01, 0x28, 0x0b, 0x32, 0x2b, 0x2e, 0x61, 0x65, 0x61,
  0x2e, 0x68, 0x65, 0x6c, 0x70, 0x65, 0x72, 0x73, 0x2e, 0x73, 0x65, 0x61, 0x72, 0x63, 0x68, 0x2e,
  0x6d, 0x6f, 0x64, 0x65, 0x6c, 0x73, 0x2e, 0x51, 0x75, 0x65, 0x72, 0x79, 0x2e, 0x44, 0x6f, 0x75,
  0x62, 0x6c, 0x65, 0x50, 0x61, 0x69, 0x72, 0x48, 0x00, 0x12, 0x46, 0x0a, 0x0d, 0x6c, 0x6f, 0x63,
  0x61, 0x74, 0x69, 0x6f, 0x6e, 0x5f, 0x70, 0x61, 0x69, 0x72, 0x18, 0x04, 0x20, 0x01, 0x28, 0x0b,
  0x32, 0x2d, 0x2e, 0x61, 0x65, 0x61, 0x2e, 0x68, 0x65, 0x6c, 0x70, 0x65, 0x72, 0x73, 0x2e, 0x73,
  0x65, 0x61, 0x72, 0x63, 0x68, 0x2e, 0x6d, 0x6f, 0x64, 0x65, 0x6c, 0x73, 0x2e, 0x51, 0x75, 0x65,
  0x72, 0x79, 0x2e, 0x4c, 0x6f, 0x63, 0x61, 0x74, 0x69, 0x6f, 0x6e, 0x50, 0x61, 0x69, 0x72, 0x48,
  0x00, 0x42, 0x06, 0x0a, 0x04, 0x70, 0x61, 0x69, 0x72, 0x1a, 0x57, 0x0a, 0x08, 0x44, 0x69, 0x73,
  0x74, 0x61, 0x6e, 0x63, 0x65, 0x12, 0x39, 0x0a, 0x06, 0x63, 0x65, 0x6e, 0x74, 0x65, 0x72, 0x18,
  0x01, 0x20, 0x01, 0x28, 0x0b, 0x32, 0x29, 0x2e, 0x61, 0x65, 0x61, 0x2e, 0x68, 0x65, 0x6c, 0x70,
  0x65, 0x72, 0x73, 0x2e, 0x73, 0x65, 0x61, 0x72, 0x63, 0x68, 0x2e, 0x6d, 0x6f, 0x64, 0x65, 0x6c,
  0x73, 0x2e, 0x51, 0x75, 0x65, 0x72, 0x79, 0x2e, 0x4c, 0x6f, 0x63, 0x61, 0x74, 0x69, 0x6f, 0x6e,
  0x12, 0x10, 0x0a, 0x08, 0x64, 0x69, 0x73, 0x74, 0x61, 0x6e, 0x63, 0x65, 0x18, 0x02, 0x20, 0x01,
  0x28, 0x01, 0x1a, 0xca, 0x01, 0x0a, 0x08, 0x52, 0x65, 0x6c, 0x61, 0x74, 0x69, 0x6f, 0x6e, 0x12,
  0x44, 0x0a, 0x08, 0x6f, 0x70, 0x65, 0x72, 0x61, 0x74, 0x6f, 0x72, 0x18, 0x01, 0x20, 0x01, 0x28,
  0x0e, 0x32, 0x32, 0x2e, 0x61, 0x65, 0x61, 0x2e, 0x68, 0x65, 0x6c, 0x70, 0x65, 0x72, 0x73, 0x2e,
  0x73, 0x65, 0x61, 0x72, 0x63, 0x68, 0x2e, 0x6d, 0x6f, 0x64, 0x65, 0x6c, 0x73, 0x2e, 0x51, 0x75,
  0x65, 0x72, 0x79, 0x2e, 0x52, 0x65, 0x6c, 0x61, 0x74, 0x69, 0x6f, 0x6e, 0x2e, 0x4f, 0x70, 0x65,
  0x72, 0x61, 0x74, 0x6f, 0x72, 0x12, 0x35, 0x0a, 0x05, 0x76, 0x61, 0x6c, 0x75, 0x65, 0x18, 0x02,
  0x20, 0x01, 0x28, 0x0b, 0x32, 0x26, 0x2e, 0x61, 0x65, 0x61, 0x2e, 0x68, 0x65, 0x6c, 0x70, 0x65,
  0x72, 0x73, 0x2e, 0x73, 0x65, 0x61, 0x72, 0x63, 0x68, 0x2e, 0x6d, 0x6f, 0x64, 0x65, 0x6c, 0x73,
  0x2e, 0x51, 0x75, 0x65, 0x72, 0x79, 0x2e, 0x56, 0x61, 0x6c, 0x75, 0x65, 0x22, 0x41, 0x0a, 0x08,
  0x4f, 0x70, 0x65, 0x72, 0x61, 0x74, 0x6f, 0x72, 0x12, 0x06, 0x0a, 0x02, 0x45, 0x51, 0x10, 0x00,
  0x12, 0x06, 0x0a, 0x02, 0x4c, 0x54, 0x10, 0x01, 0x12, 0x08, 0x0a, 0x04, 0x4c, 0x54, 0x45, 0x51,
  0x10, 0x02, 0x12, 0x06, 0x0a, 0x02, 0x47, 0x54, 0x10, 0x03, 0x12, 0x08, 0x0a, 0x04, 0x47, 0x54,
  0x45, 0x51, 0x10, 0x04, 0x12, 0x09, 0x0a, 0x05, 0x4e, 0x4f, 0x54, 0x45, 0x51, 0x10, 0x05, 0x1a,
  0xca, 0x05, 0x0a, 0x03, 0x53, 0x65, 0x74, 0x12, 0x3f, 0x0a, 0x08, 0x6f, 0x70, 0x65, 0x72, 0x61,
  0x74, 0x6f, 0x72, 0x18, 0x01, 0x20, 0x01, 0x28, 0x0e, 0x32, 0x2d, 0x2e, 0x61, 0x65, 0x61, 0x2e,
  0x68, 0x65, 0x6c, 0x70, 0x65, 0x72, 0x73, 0x2e, 0x73, 0x65, 0x61, 0x72, 0x63, 0x68, 0x2e, 0x6d,
  0x6f, 0x64, 0x65, 0x6c, 0x73, 0x2e, 0x51, 0x75, 0x65, 0x72, 0x79, 0x2e, 0x53, 0x65, 0x74, 0x2e,
  0x4f, 0x70, 0x65, 0x72, 0x61, 0x74, 0x6f, 0x72, 0x12, 0x3b, 0x0a, 0x06, 0x76, 0x61, 0x6c, 0x75,
  0x65, 0x73, 0x18, 0x02, 0x20, 0x01, 0x28, 0x0b, 0x32, 0x2b, 0x2e, 0x61, 0x65, 0x61, 0x2e, 0x68,
  0x65, 0x6c, 0x70, 0x65, 0x72, 0x73, 0x2e, 0x73, 0x65, 0x61, 0x72, 0x63, 0x68, 0x2e, 0x6d, 0x6f,
  0x64, 0x65, 0x6c, 0x73, 0x2e, 0x51, 0x75, 0x65, 0x72, 0x79, 0x2e, 0x53, 0x65, 0x74, 0x2e, 0x56,
  0x61, 0x6c, 0x75, 0x65, 0x73, 0x1a, 0xa5, 0x04, 0x0a, 0x06, 0x56, 0x61, 0x6c, 0x75, 0x65, 0x73,
  0x12, 0x45, 0x0a, 0x06, 0x73, 0x74, 0x72, 0x69, 0x6e, 0x67, 0x18, 0x01, 0x20, 0x01, 0x28, 0x0b,
  0x32, 0x33, 0x2e, 0x61, 0x65, 0x61, 0x2e, 0x68, 0x65, 0x6c, 0x70, 0x65, 0x72, 0x73, 0x2e, 0x73,
  0x65, 0x61, 0x72, 0x63, 0x68, 0x2e, 0x6d, 0x6f, 0x64, 0x65, 0x6c, 0x73, 0x2e, 0x51, 0x75, 0x65,
  0x72, 0x79, 0x2e, 0x53, 0x65, 0x74, 0x2e, 0x56, 0x61, 0x6c, 0x75, 0x65, 0x73, 0x2e, 0x53, 0x74,
  0x72, 0x69, 0x6e, 0x67, 0x73, 0x48, 0x00, 0x12, 0x45, 0x0a, 0x06, 0x64, 0x6f, 0x75, 0x62, 0x6c,
  0x65, 0x18, 0x02, 0x20, 0x01, 0x28, 0x0b, 0x32, 0x33, 0x2e, 0x61, 0x65, 0x61, 0x2e, 0x68, 0x65,
  0x6c, 0x70, 0x65, 0x72, 0x73, 0x2e, 0x73, 0x65, 0x61, 0x72, 0x63, 0x68, 0x2e, 0x6d, 0x6f, 0x64,
  0x65, 0x6c, 0x73, 0x2e, 0x51, 0x75, 0x65, 0x72, 0x79, 0x2e, 0x53, 0x65, 0x74, 0x2e, 0x56, 0x61,
  0x6c, 0x75, 0x65, 0x73, 0x2e, 0x44, 0x6f, 0x75, 0x62, 0x6c, 0x65, 0x73, 0x48, 0x00, 0x12, 0x44,
  0x0a, 0x07, 0x62, 0x6f, 0x6f, 0x6c, 0x65, 0x61, 0x6e, 0x18, 0x03, 0x20, 0x01, 0x28, 0x0b, 0x32,
  0x31, 0x2e, 0x61, 0x65, 0x61, 0x2e, 0x68, 0x65, 0x6c, 0x70, 0x65, 0x72, 0x73, 0x2e, 0x73, 0x65,
  0x61, 0x72, 0x63, 0x68, 0x2e, 0x6d, 0x6f, 0x64, 0x65, 0x6c, 0x73, 0x2e, 0x51, 0x75, 0x65, 0x72,
  0x79, 0x2e, 0x53, 0x65, 0x74, 0x2e, 0x56, 0x61, 0x6c, 0x75, 0x65, 0x73, 0x2e, 0x42, 0x6f, 0x6f,
  0x6c, 0x73, 0x48, 0x00, 0x12, 0x43, 0x0a, 0x07, 0x69, 0x6e, 0x74, 0x65, 0x67, 0x65, 0x72, 0x18,
  0x04, 0x20, 0x01, 0x28, 0x0b, 0x32, 0x30, 0x2e, 0x61, 0x65, 0x61, 0x2e, 0x68, 0x65, 0x6c, 0x70,
  0x65, 0x72, 0x73, 0x2e, 0x73, 0x65, 0x61, 0x72, 0x63, 0x68, 0x2e, 0x6d, 0x6f, 0x64, 0x65, 0x6c,
  0x73, 0x2e, 0x51, 0x75, 0x65, 0x72, 0x79, 0x2e, 0x53, 0x65, 0x74, 0x2e, 0x56, 0x61, 0x6c, 0x75,
  0x65, 0x73, 0x2e, 0x49, 0x6e, 0x74, 0x73, 0x48, 0x00, 0x12, 0x49, 0x0a, 0x08, 0x6c, 0x6f, 0x63,
  0x61, 0x74, 0x69, 0x6f, 0x6e, 0x18, 0x05, 0x20, 0x01, 0x28, 0x0b, 0x32, 0x35, 0x2e, 0x61, 0x65,
  0x61, 0x2e, 0x68, 0x65, 0x6c, 0x70, 0x65, 0x72, 0x73, 0x2e, 0x73, 0x65, 0x61, 0x72, 0x63, 0x68,
  0x2e, 0x6d, 0x6f, 0x64, 0x65, 0x6c, 0x73, 0x2e, 0x51, 0x75, 0x65, 0x72, 0x79, 0x2e, 0x53, 0x65,
  0x74, 0x2e, 0x56, 0x61, 0x6c, 0x75, 0x65, 0x73, 0x2e, 0x4c, 0x6f, 0x63, 0x61, 0x74, 0x69, 0x6f,
  0x6e, 0x73, 0x48, 0x00, 0x1a, 0x16, 0x0a, 0x04, 0x49, 0x6e, 0x74, 0x73, 0x12, 0x0e, 0x0a, 0x06,
  0x76, 0x61, 0x6c, 0x75, 0x65, 0x73, 0x18, 0x01, 0x20, 0x03, 0x28, 0x03, 0x1a, 0x19, 0x0a, 0x07,
  0x44, 0x6f, 0x75, 0x62, 0x6c, 0x65, 0x73, 0x12, 0x0e, 0x0a, 0x06, 0x76, 0x61, 0x6c, 0x75, 0x65,
  0x73, 0x18, 0x01, 0x20, 0x03, 0x28, 0x01, 0x1a, 0x19, 0x0a, 0x07, 0x53, 0x74, 0x72, 0x69, 0x6e,
  0x67, 0x73, 0x12, 0x0e, 0x0a, 0x06, 0x76, 0x61, 0x6c, 0x75, 0x65, 0x73, 0x18, 0x01, 0x20, 0x03,
  0x28, 0x09, 0x1a, 0x17, 0x0a, 0x05, 0x42, 0x6f, 0x6f, 0x6c, 0x73, 0x12, 0x0e, 0x0a, 0x06, 0x76,
  0x61, 0x6c, 0x75, 0x65, 0x73, 0x18, 0x01, 0x20, 0x03, 0x28, 0x08, 0x1a, 0x46, 0x0a, 0x09, 0x4c,
  0x6f, 0x63, 0x61, 0x74, 0x69, 0x6f, 0x6e, 0x73, 0x12, 0x39, 0x0a, 0x06, 0x76, 0x61, 0x6c, 0x75,
  0x65, 0x73, 0x18, 0x01, 0x20, 0x03, 0x28, 0x0b, 0x32, 0x29, 0x2e, 0x61, 0x65, 0x61, 0x2e, 0x68,
  0x65, 0x6c, 0x70, 0x65, 0x72, 0x73, 0x2e, 0x73, 0x65, 0x61, 0x72, 0x63, 0x68, 0x2e, 0x6d, 0x6f,
  0x64, 0x65, 0x6c, 0x73, 0x2e, 0x51, 0x75, 0x65, 0x72, 0x79, 0x2e, 0x4c, 0x6f, 0x63, 0x61, 0x74,
  0x69, 0x6f, 0x6e, 0x42, 0x08, 0x0a, 0x06, 0x76, 0x61, 0x6c, 0x75, 0x65, 0x73, 0x22, 0x1d, 0x0a,
  0x08, 0x4f, 0x70, 0x65, 0x72, 0x61, 0x74, 0x6f, 0x72, 0x12, 0x06, 0x0a, 0x02, 0x49, 0x4e, 0x10,
  0x00, 0x12, 0x09, 0x0a, 0x05, 0x4e, 0x4f, 0x54, 0x49, 0x4e, 0x10, 0x01, 0x1a, 0xc3, 0x06, 0x0a,
  0x0e, 0x43, 0x6f, 0x6e, 0x73, 0x74, 0x72, 0x61, 0x69, 0x6e, 0x74, 0x45, 0x78, 0x70, 0x72, 0x12,
  0x41, 0x0a, 0x03, 0x6f, 0x72, 0x5f, 0x18, 0x01, 0x20, 0x01, 0x28, 0x0b, 0x32, 0x32, 0x2e, 0x61,
  0x65, 0x61, 0x2e, 0x68, 0x65, 0x6c, 0x70, 0x65, 0x72, 0x73, 0x2e, 0x73, 0x65, 0x61, 0x72, 0x63,
  0x68, 0x2e, 0x6d, 0x6f, 0x64, 0x65, 0x6c, 0x73, 0x2e, 0x51, 0x75, 0x65, 0x72, 0x79, 0x2e, 0x43,
  0x6f, 0x6e, 0x73, 0x74, 0x72, 0x61, 0x69, 0x6e, 0x74, 0x45, 0x78, 0x70, 0x72, 0x2e, 0x4f, 0x72,
  0x48, 0x00, 0x12, 0x43, 0x0a, 0x04, 0x61, 0x6e, 0x64, 0x5f, 0x18, 0x02, 0x20, 0x01, 0x28, 0x0b,
  0x32, 0x33, 0x2e, 0x61, 0x65, 0x61, 0x2e, 0x68, 0x65, 0x6c, 0x70, 0x65, 0x72, 0x73, 0x2e, 0x73,
  0x65, 0x61, 0x72, 0x63, 0x68, 0x2e, 0x6d, 0x6f, 0x64, 0x65, 0x6c, 0x73, 0x2e, 0x51, 0x75, 0x65,
  0x72, 0x79, 0x2e, 0x43, 0x6f, 0x6e, 0x73, 0x74, 0x72, 0x61, 0x69, 0x6e, 0x74, 0x45, 0x78, 0x70,
  0x72, 0x2e, 0x41, 0x6e, 0x64, 0x48, 0x00, 0x12, 0x43, 0x0a, 0x04, 0x6e, 0x6f, 0x74, 0x5f, 0x18,
  0x03, 0x20, 0x01, 0x28, 0x0b, 0x32, 0x33, 0x2e, 0x61, 0x65, 0x61, 0x2e, 0x68, 0x65, 0x6c, 0x70,
  0x65, 0x72, 0x73, 0x2e, 0x73, 0x65, 0x61, 0x72, 0x63, 0x68, 0x2e, 0x6d, 0x6f, 0x64, 0x65, 0x6c,
  0x73, 0x2e, 0x51, 0x75, 0x65, 0x72, 0x79, 0x2e, 0x43, 0x6f, 0x6e, 0x73, 0x74, 0x72, 0x61, 0x69,
  0x6e, 0x74, 0x45, 0x78, 0x70, 0x72, 0x2e, 0x4e, 0x6f, 0x74, 0x48, 0x00, 0x12, 0x50, 0x0a, 0x0a,
  0x63, 0x6f, 0x6e, 0x73, 0x74, 0x72, 0x61, 0x69, 0x6e, 0x74, 0x18, 0x04, 0x20, 0x01, 0x28, 0x0b,
  0x32, 0x3a, 0x2e, 0x61, 0x65, 0x61, 0x2e, 0x68, 0x65, 0x6c, 0x70, 0x65, 0x72, 0x73, 0x2e, 0x73,
  0x65, 0x61, 0x72, 0x63, 0x68, 0x2e, 0x6d, 0x6f, 0x64, 0x65, 0x6c, 0x73, 0x2e, 0x51, 0x75, 0x65,
  0x72, 0x79, 0x2e, 0x43, 0x6f, 0x6e, 0x73, 0x74, 0x72, 0x61, 0x69, 0x6e, 0x74, 0x45, 0x78, 0x70,
  0x72, 0x2e, 0x43, 0x6f, 0x6e, 0x73, 0x74, 0x72, 0x61, 0x69, 0x6e, 0x74, 0x48, 0x00, 0x1a, 0x49,
  0x0a, 0x02, 0x4f, 0x72, 0x12, 0x43, 0x0a, 0x0a, 0x65, 0x78, 0x70, 0x72, 0x65, 0x73, 0x73, 0x69,
  0x6f, 0x6e, 0x18, 0x01, 0x20, 0x03, 0x28, 0x0b, 0x32, 0x2f, 0x2e, 0x61, 0x65, 0x61, 0x2e, 0x68,
  0x65, 0x6c, 0x70, 0x65, 0x72, 0x73, 0x2e, 0x73, 0x65, 0x61, 0x72, 0x63, 0x68, 0x2e, 0x6d, 0x6f,
  0x64, 0x65, 0x6c, 0x73, 0x2e, 0x51, 0x75, 0x65, 0x72, 0x79, 0x2e, 0x43, 0x6f, 0x6e, 0x73, 0x74,
  0x72, 0x61, 0x69, 0x6e, 0x74, 0x45, 0x78, 0x70, 0x72, 0x1a, 0x4a, 0x0a, 0x03, 0x41, 0x6e, 0x64,
  0x12, 0x43, 0x0a, 0x0a, 0x65, 0x78, 0x70, 0x72, 0x65, 0x73, 0x73, 0x69, 0x6f, 0x6e, 0x18, 0x01,
  0x20, 0x03, 0x28, 0x0b, 0x32, 0x2f, 0x2e, 0x61, 0x65, 0x61, 0x2e, 0x68, 0x65, 0x6c, 0x70, 0x65,
  0x72, 0x73, 0x2e, 0x73, 0x65, 0x61, 0x72, 0x63, 0x68, 0x2e, 0x6d, 0x6f, 0x64, 0x65, 0x6c, 0x73,
  0x2e, 0x51, 0x75, 0x65, 0x72, 0x79, 0x2e, 0x43, 0x6f, 0x6e, 0x73, 0x74, 0x72, 0x61, 0x69, 0x6e,
  0x74, 0x45, 0x78, 0x70, 0x72, 0x1a, 0x4a, 0x0a, 0x03, 0x4e, 0x6f, 0x74, 0x12, 0x43, 0x0a, 0x0a,
  0x65, 0x78, 0x70, 0x72, 0x65, 0x73, 0x73, 0x69, 0x6f, 0x6e, 0x18, 0x01, 0x20, 0x01, 0x28, 0x0b,
  0x32, 0x2f, 0x2e, 0x61, 0x65, 0x61, 0x2e, 0x68, 0x65, 0x6c, 0x70, 0x65, 0x72, 0x73, 0x2e, 0x73,
  0x65, 0x61, 0x72, 0x63, 0x68, 0x2e, 0x6d, 0x6f, 0x64, 0x65, 0x6c, 0x73, 0x2e, 0x51, 0x75, 0x65,
  0x72, 0x79, 0x2e, 0x43, 0x6f, 0x6e, 0x73, 0x74, 0x72, 0x61, 0x69, 0x6e, 0x74, 0x45, 0x78, 0x70,
  0x72, 0x1a, 0xa0, 0x02, 0x0a, 0x0a, 0x43, 0x6f, 0x6e, 0x73, 0x74, 0x72, 0x61, 0x69, 0x6e, 0x74,
  0x12, 0x16, 0x0a, 0x0e, 0x61, 0x74, 0x74, 0x72, 0x69, 0x62, 0x75, 0x74, 0x65, 0x5f, 0x6e, 0x61,
  0x6d, 0x65, 0x18, 0x01, 0x20, 0x01, 0x28, 0x09, 0x12, 0x34, 0x0a, 0x04, 0x73, 0x65, 0x74, 0x5f,
  0x18, 0x02, 0x20, 0x01, 0x28, 0x0b, 0x32, 0x24, 0x2e, 0x61, 0x65, 0x61, 0x2e, 0x68, 0x65, 0x6c,
  0x70, 0x65, 0x72, 0x73, 0x2e, 0x73, 0x65, 0x61, 0x72, 0x63, 0x68, 0x2e, 0x6d, 0x6f, 0x64, 0x65,
  0x6c, 0x73, 0x2e, 0x51, 0x75, 0x65, 0x72, 0x79, 0x2e, 0x53, 0x65, 0x74, 0x48, 0x00, 0x12, 0x38,
  0x0a, 0x06, 0x72, 0x61, 0x6e, 0x67, 0x65, 0x5f, 0x18, 0x03, 0x20, 0x01, 0x28, 0x0b, 0x32, 0x26,
  0x2e, 0x61, 0x65, 0x61, 0x2e, 0x68, 0x65, 0x6c, 0x70, 0x65, 0x72, 0x73, 0x2e, 0x73, 0x65, 0x61,
  0x72, 0x63, 0x68, 0x2e, 0x6d, 0x6f, 0x64, 0x65, 0x6c, 0x73, 0x2e, 0x51, 0x75, 0x65, 0x72, 0x79,
  0x2e, 0x52, 0x61, 0x6e, 0x67, 0x65, 0x48, 0x00, 0x12, 0x3d, 0x0a, 0x08, 0x72, 0x65, 0x6c, 0x61,
  0x74, 0x69, 0x6f, 0x6e, 0x18, 0x04, 0x20, 0x01, 0x28, 0x0b, 0x32, 0x29, 0x2e, 0x61, 0x65, 0x61,
  0x2e, 0x68, 0x65, 0x6c, 0x70, 0x65, 0x72, 0x73, 0x2e, 0x73, 0x65, 0x61, 0x72, 0x63, 0x68, 0x2e,
  0x6d, 0x6f, 0x64, 0x65, 0x6c, 0x73, 0x2e, 0x51, 0x75, 0x65, 0x72, 0x79, 0x2e, 0x52, 0x65, 0x6c,
  0x61, 0x74, 0x69, 0x6f, 0x6e, 0x48, 0x00, 0x12, 0x3d, 0x0a, 0x08, 0x64, 0x69, 0x73, 0x74, 0x61,
  0x6e, 0x63, 0x65, 0x18, 0x05, 0x20, 0x01, 0x28, 0x0b, 0x32, 0x29, 0x2e, 0x61, 0x65, 0x61, 0x2e,
  0x68, 0x65, 0x6c, 0x70, 0x65, 0x72, 0x73, 0x2e, 0x73, 0x65, 0x61, 0x72, 0x63, 0x68, 0x2e, 0x6d,
  0x6f, 0x64, 0x65, 0x6c, 0x73, 0x2e, 0x51, 0x75, 0x65, 0x72, 0x79, 0x2e, 0x44, 0x69, 0x73, 0x74,
  0x61, 0x6e, 0x63, 0x65, 0x48, 0x00, 0x42, 0x0c, 0x0a, 0x0a, 0x63, 0x6f, 0x6e, 0x73, 0x74, 0x72,
  0x61, 0x69, 0x6e, 0x74, 0x42, 0x0c, 0x0a, 0x0a, 0x65, 0x78, 0x70, 0x72, 0x65, 0x73, 0x73, 0x69,
  0x6f, 0x6e, 0x1a, 0x88, 0x01, 0x0a, 0x05, 0x4d, 0x6f, 0x64, 0x65, 0x6c, 0x12, 0x44, 0x0a, 0x0b,
  0x63, 0x6f, 0x6e, 0x73, 0x74, 0x72, 0x61, 0x69, 0x6e, 0x74, 0x73, 0x18, 0x01, 0x20, 0x03, 0x28,
  0x0b, 0x32, 0x2f, 0x2e, 0x61, 0x65, 0x61, 0x2e, 0x68, 0x65, 0x6c, 0x70, 0x65, 0x72, 0x73, 0x2e,
  0x73, 0x65, 0x61, 0x72, 0x63, 0x68, 0x2e, 0x6d, 0x6f, 0x64, 0x65, 0x6c, 0x73, 0x2e, 0x51, 0x75,
  0x65, 0x72, 0x79, 0x2e, 0x43, 0x6f, 0x6e, 0x73, 0x74, 0x72, 0x61, 0x69, 0x6e, 0x74, 0x45, 0x78,
  0x70, 0x72, 0x12, 0x39, 0x0a, 0x05, 0x6d, 0x6f, 0x64, 0x65, 0x6c, 0x18, 0x02, 0x20, 0x01, 0x28,
  0x0b, 0x32, 0x2a, 0x2e, 0x61, 0x65, 0x61, 0x2e, 0x68, 0x65, 0x6c, 0x70, 0x65, 0x72, 0x73, 0x2e,
  0x73, 0x65, 0x61, 0x72, 0x63, 0x68, 0x2e, 0x6d, 0x6f, 0x64, 0x65, 0x6c, 0x73, 0x2e, 0x51, 0x75,
  0x65, 0x72, 0x79, 0x2e, 0x44, 0x61, 0x74, 0x61, 0x4d, 0x6f, 0x64, 0x65, 0x6c, 0x42, 0x02, 0x48,
  0x01, 0x62, 0x06, 0x70, 0x72, 0x6f, 0x74, 0x6f, 0x33]

/-- packages/fetchai/protocols/fipa/fipa_pb2.py:17 -/
def fipaPy : Bytes := [
  0x0a, 0x0a, 0x66, 0x69, 0x70, 0x61, 0x2e, 0x70, 0x72, 0x6f, 0x74, 0x6f, 0x12, 0x17, 0x61, 0x65,
  0x61, 0x2e, 0x66, 0x65, 0x74, 0x63, 0x68, 0x61, 0x69, 0x2e, 0x66, 0x69, 0x70, 0x61, 0x2e, 0x76,
  0x31, 0x5f, 0x30, 0x5f, 0x30, 0x22, 0xc5, 0x0c, 0x0a, 0x0b, 0x46, 0x69, 0x70, 0x61, 0x4d, 0x65,
  0x73, 0x73, 0x61, 0x67, 0x65, 0x12, 0x4a, 0x0a, 0x06, 0x61, 0x63, 0x63, 0x65, 0x70, 0x74, 0x18,
  0x05, 0x20, 0x01, 0x28, 0x0b, 0x32, 0x38, 0x2e, 0x61, 0x65, 0x61, 0x2e, 0x66, 0x65, 0x74, 0x63,
  0x68, 0x61, 0x69, 0x2e, 0x66, 0x69, 0x70, 0x61, 0x2e, 0x76, 0x31, 0x5f, 0x30, 0x5f, 0x30, 0x2e,
  0x46, 0x69, 0x70, 0x61, 0x4d, 0x65, 0x73, 0x73, 0x61, 0x67, 0x65, 0x2e, 0x41, 0x63, 0x63, 0x65,
  0x70, 0x74, 0x5f, 0x50, 0x65, 0x72, 0x66, 0x6f, 0x72, 0x6d, 0x61, 0x74, 0x69, 0x76, 0x65, 0x48,
  0x00, 0x12, 0x5c, 0x0a, 0x0f, 0x61, 0x63, 0x63, 0x65, 0x70, 0x74, 0x5f, 0x77, 0x5f, 0x69, 0x6e,
  0x66, 0x6f, 0x72, 0x6d, 0x18, 0x06, 0x20, 0x01, 0x28, 0x0b, 0x32, 0x41, 0x2e, 0x61, 0x65, 0x61,
  0x2e, 0x66, 0x65, 0x74, 0x63, 0x68, 0x61, 0x69, 0x2e, 0x66, 0x69, 0x70, 0x61, 0x2e, 0x76, 0x31,
  0x5f, 0x30, 0x5f, 0x30, 0x2e, 0x46, 0x69, 0x70, 0x61, 0x4d, 0x65, 0x73, 0x73, 0x61, 0x67, 0x65,
  0x2e, 0x41, 0x63, 0x63, 0x65, 0x70, 0x74, 0x5f, 0x57, 0x5f, 0x49, 0x6e, 0x66, 0x6f, 0x72, 0x6d,
  0x5f, 0x50, 0x65, 0x72, 0x66, 0x6f, 0x72, 0x6d, 0x61, 0x74, 0x69, 0x76, 0x65, 0x48, 0x00, 0x12,
  0x44, 0x0a, 0x03, 0x63, 0x66, 0x70, 0x18, 0x07, 0x20, 0x01, 0x28, 0x0b, 0x32, 0x35, 0x2e, 0x61,
  0x65, 0x61, 0x2e, 0x66, 0x65, 0x74, 0x63, 0x68, 0x61, 0x69, 0x2e, 0x66, 0x69, 0x70, 0x61, 0x2e,
  0x76, 0x31, 0x5f, 0x30, 0x5f, 0x30, 0x2e, 0x46, 0x69, 0x70, 0x61, 0x4d, 0x65, 0x73, 0x73, 0x61,
  0x67, 0x65, 0x2e, 0x43, 0x66, 0x70, 0x5f, 0x50, 0x65, 0x72, 0x66, 0x6f, 0x72, 0x6d, 0x61, 0x74,
  0x69, 0x76, 0x65, 0x48, 0x00, 0x12, 0x4c, 0x0a, 0x07, 0x64, 0x65, 0x63, 0x6c, 0x69, 0x6e, 0x65,
  0x18, 0x08, 0x20, 0x01, 0x28, 0x0b, 0x32, 0x39, 0x2e, 0x61, 0x65, 0x61, 0x2e, 0x66, 0x65, 0x74,
  0x63, 0x68, 0x61, 0x69, 0x2e, 0x66, 0x69, 0x70, 0x61, 0x2e, 0x76, 0x31, 0x5f, 0x30, 0x5f, 0x30,
  0x2e, 0x46, 0x69, 0x70, 0x61, 0x4d, 0x65, 0x73, 0x73, 0x61, 0x67, 0x65, 0x2e, 0x44, 0x65, 0x63,
  0x6c, 0x69, 0x6e, 0x65, 0x5f, 0x50, 0x65, 0x72, 0x66, 0x6f, 0x72, 0x6d, 0x61, 0x74, 0x69, 0x76,
  0x65, 0x48, 0x00, 0x12, 0x44, 0x0a, 0x03, 0x65, 0x6e, 0x64, 0x18, 0x09, 0x20, 0x01, 0x28, 0x0b,
  0x32, 0x35, 0x2e, 0x61, 0x65, 0x61, 0x2e, 0x66, 0x65, 0x74, 0x63, 0x68, 0x61, 0x69, 0x2e, 0x66,
  0x69, 0x70, 0x61, 0x2e, 0x76, 0x31, 0x5f, 0x30, 0x5f, 0x30, 0x2e, 0x46, 0x69, 0x70, 0x61, 0x4d,
  0x65, 0x73, 0x73, 0x61, 0x67, 0x65, 0x2e, 0x45, 0x6e, 0x64, 0x5f, 0x50, 0x65, 0x72, 0x66, 0x6f,
  0x72, 0x6d, 0x61, 0x74, 0x69, 0x76, 0x65, 0x48, 0x00, 0x12, 0x4a, 0x0a, 0x06, 0x69, 0x6e, 0x66,
  0x6f, 0x72, 0x6d, 0x18, 0x0a, 0x20, 0x01, 0x28, 0x0b, 0x32, 0x38, 0x2e, 0x61, 0x65, 0x61, 0x2e,
  0x66, 0x65, 0x74, 0x63, 0x68, 0x61, 0x69, 0x2e, 0x66, 0x69, 0x70, 0x61, 0x2e, 0x76, 0x31, 0x5f,
  0x30, 0x5f, 0x30, 0x2e, 0x46, 0x69, 0x70, 0x61, 0x4d, 0x65, 0x73, 0x73, 0x61, 0x67, 0x65, 0x2e,
  0x49, 0x6e, 0x66, 0x6f, 0x72, 0x6d, 0x5f, 0x50, 0x65, 0x72, 0x66, 0x6f, 0x72, 0x6d, 0x61, 0x74,
  0x69, 0x76, 0x65, 0x48, 0x00, 0x12, 0x56, 0x0a, 0x0c, 0x6d, 0x61, 0x74, 0x63, 0x68, 0x5f, 0x61,
  0x63, 0x63, 0x65, 0x70, 0x74, 0x18, 0x0b, 0x20, 0x01, 0x28, 0x0b, 0x32, 0x3e, 0x2e, 0x61, 0x65,
  0x61, 0x2e, 0x66, 0x65, 0x74, 0x63, 0x68, 0x61, 0x69, 0x2e, 0x66, 0x69, 0x70, 0x61, 0x2e, 0x76,
  0x31, 0x5f, 0x30, 0x5f, 0x30, 0x2e, 0x46, 0x69, 0x70, 0x61, 0x4d, 0x65, 0x73, 0x73, 0x61, 0x67,
  0x65, 0x2e, 0x4d, 0x61, 0x74, 0x63, 0x68, 0x5f, 0x41, 0x63, 0x63, 0x65, 0x70, 0x74, 0x5f, 0x50,
  0x65, 0x72, 0x66, 0x6f, 0x72, 0x6d, 0x61, 0x74, 0x69, 0x76, 0x65, 0x48, 0x00, 0x12, 0x68, 0x0a,
  0x15, 0x6d, 0x61, 0x74, 0x63, 0x68, 0x5f, 0x61, 0x63, 0x63, 0x65, 0x70, 0x74, 0x5f, 0x77, 0x5f,
  0x69, 0x6e, 0x66, 0x6f, 0x72, 0x6d, 0x18, 0x0c, 0x20, 0x01, 0x28, 0x0b, 0x32, 0x47, 0x2e, 0x61,
  0x65, 0x61, 0x2e, 0x66, 0x65, 0x74, 0x63, 0x68, 0x61, 0x69, 0x2e, 0x66, 0x69, 0x70, 0x61, 0x2e,
  0x76, 0x31, 0x5f, 0x30, 0x5f, 0x30, 0x2e, 0x46, 0x69, 0x70, 0x61, 0x4d, 0x65, 0x73, 0x73, 0x61,
  0x67, 0x65, 0x2e, 0x4d, 0x61, 0x74, 0x63, 0x68, 0x5f, 0x41, 0x63, 0x63, 0x65, 0x70, 0x74, 0x5f,
  0x57, 0x5f, 0x49, 0x6e, 0x66, 0x6f, 0x72, 0x6d, 0x5f, 0x50, 0x65, 0x72, 0x66, 0x6f, 0x72, 0x6d,
  0x61, 0x74, 0x69, 0x76, 0x65, 0x48, 0x00, 0x12, 0x4c, 0x0a, 0x07, 0x70, 0x72, 0x6f, 0x70, 0x6f,
  0x73, 0x65, 0x18, 0x0d, 0x20, 0x01, 0x28, 0x0b, 0x32, 0x39, 0x2e, 0x61, 0x65, 0x61, 0x2e, 0x66,
  0x65, 0x74, 0x63, 0x68, 0x61, 0x69, 0x2e, 0x66, 0x69, 0x70, 0x61, 0x2e, 0x76, 0x31, 0x5f, 0x30,
  0x5f, 0x30, 0x2e, 0x46, 0x69, 0x70, 0x61, 0x4d, 0x65, 0x73, 0x73, 0x61, 0x67, 0x65, 0x2e, 0x50,
  0x72, 0x6f, 0x70, 0x6f, 0x73, 0x65, 0x5f, 0x50, 0x65, 0x72, 0x66, 0x6f, 0x72, 0x6d, 0x61, 0x74,
  0x69, 0x76, 0x65, 0x48, 0x00, 0x1a, 0x28, 0x0a, 0x0b, 0x44, 0x65, 0x73, 0x63, 0x72, 0x69, 0x70,
  0x74, 0x69, 0x6f, 0x6e, 0x12, 0x19, 0x0a, 0x11, 0x64, 0x65, 0x73, 0x63, 0x72, 0x69, 0x70, 0x74,
  0x69, 0x6f, 0x6e, 0x5f, 0x62, 0x79, 0x74, 0x65, 0x73, 0x18, 0x01, 0x20, 0x01, 0x28, 0x0c, 0x1a,
  0x1c, 0x0a, 0x05, 0x51, 0x75, 0x65, 0x72, 0x79, 0x12, 0x13, 0x0a, 0x0b, 0x71, 0x75, 0x65, 0x72,
  0x79, 0x5f, 0x62, 0x79, 0x74, 0x65, 0x73, 0x18, 0x01, 0x20, 0x01, 0x28, 0x0c, 0x1a, 0x4d, 0x0a,
  0x10, 0x43, 0x66, 0x70, 0x5f, 0x50, 0x65, 0x72, 0x66, 0x6f, 0x72, 0x6d, 0x61, 0x74, 0x69, 0x76,
  0x65, 0x12, 0x39, 0x0a, 0x05, 0x71, 0x75, 0x65, 0x72, 0x79, 0x18, 0x01, 0x20, 0x01, 0x28, 0x0b,
  0x32, 0x2a, 0x2e, 0x61, 0x65, 0x61, 0x2e, 0x66, 0x65, 0x74, 0x63, 0x68, 0x61, 0x69, 0x2e, 0x66,
  0x69, 0x70, 0x61, 0x2e, 0x76, 0x31, 0x5f, 0x30, 0x5f, 0x30, 0x2e, 0x46, 0x69, 0x70, 0x61, 0x4d,
  0x65, 0x73, 0x73, 0x61, 0x67, 0x65, 0x2e, 0x51, 0x75, 0x65, 0x72, 0x79, 0x1a, 0x5a, 0x0a, 0x14,
  0x50, 0x72, 0x6f, 0x70, 0x6f, 0x73, 0x65, 0x5f, 0x50, 0x65, 0x72, 0x66, 0x6f, 0x72, 0x6d, 0x61,
  0x74, 0x69, 0x76, 0x65, 0x12, 0x42, 0x0a, 0x08, 0x70, 0x72, 0x6f, 0x70, 0x6f, 0x73, 0x61, 0x6c,
  0x18, 0x01, 0x20, 0x01, 0x28, 0x0b, 0x32, 0x30, 0x2e, 0x61, 0x65, 0x61, 0x2e, 0x66, 0x65, 0x74,
  0x63, 0x68, 0x61, 0x69, 0x2e, 0x66, 0x69, 0x70, 0x61, 0x2e, 0x76, 0x31, 0x5f, 0x30, 0x5f, 0x30,
  0x2e, 0x46, 0x69, 0x70, 0x61, 0x4d, 0x65, 0x73, 0x73, 0x61, 0x67, 0x65, 0x2e, 0x44, 0x65, 0x73,
  0x63, 0x72, 0x69, 0x70, 0x74, 0x69, 0x6f, 0x6e, 0x1a, 0xa6, 0x01, 0x0a, 0x1c, 0x41, 0x63, 0x63,
  0x65, 0x70, 0x74, 0x5f, 0x57, 0x5f, 0x49, 0x6e, 0x66, 0x6f, 0x72, 0x6d, 0x5f, 0x50, 0x65, 0x72,
  0x66, 0x6f, 0x72, 0x6d, 0x61, 0x74, 0x69, 0x76, 0x65, 0x12, 0x59, 0x0a, 0x04, 0x69, 0x6e, 0x66,
  0x6f, 0x18, 0x01, 0x20, 0x03, 0x28, 0x0b, 0x32, 0x4b, 0x2e, 0x61, 0x65, 0x61, 0x2e, 0x66, 0x65,
  0x74, 0x63, 0x68, 0x61, 0x69, 0x2e, 0x66, 0x69, 0x70, 0x61, 0x2e, 0x76, 0x31, 0x5f, 0x30, 0x5f,
  0x30, 0x2e, 0x46, 0x69, 0x70, 0x61, 0x4d, 0x65, 0x73, 0x73, 0x61, 0x67, 0x65, 0x2e, 0x41, 0x63,
  0x63, 0x65, 0x70, 0x74, 0x5f, 0x57, 0x5f, 0x49, 0x6e, 0x66, 0x6f, 0x72, 0x6d, 0x5f, 0x50, 0x65,
  0x72, 0x66, 0x6f, 0x72, 0x6d, 0x61, 0x74, 0x69, 0x76, 0x65, 0x2e, 0x49, 0x6e, 0x66, 0x6f, 0x45,
  0x6e, 0x74, 0x72, 0x79, 0x1a, 0x2b, 0x0a, 0x09, 0x49, 0x6e, 0x66, 0x6f, 0x45, 0x6e, 0x74, 0x72,
  0x79, 0x12, 0x0b, 0x0a, 0x03, 0x6b, 0x65, 0x79, 0x18, 0x01, 0x20, 0x01, 0x28, 0x09, 0x12, 0x0d,
  0x0a, 0x05, 0x76, 0x61, 0x6c, 0x75, 0x65, 0x18, 0x02, 0x20, 0x01, 0x28, 0x09, 0x3a, 0x02, 0x38,
  0x01, 0x1a, 0xb2, 0x01, 0x0a, 0x22, 0x4d, 0x61, 0x74, 0x63, 0x68, 0x5f, 0x41, 0x63, 0x63, 0x65,
  0x70, 0x74, 0x5f, 0x57, 0x5f, 0x49, 0x6e, 0x66, 0x6f, 0x72, 0x6d, 0x5f, 0x50, 0x65, 0x72, 0x66,
  0x6f, 0x72, 0x6d, 0x61, 0x74, 0x69, 0x76, 0x65, 0x12, 0x5f, 0x0a, 0x04, 0x69, 0x6e, 0x66, 0x6f,
  0x18, 0x01, 0x20, 0x03, 0x28, 0x0b, 0x32, 0x51, 0x2e, 0x61, 0x65, 0x61, 0x2e, 0x66, 0x65, 0x74,
  0x63, 0x68, 0x61, 0x69, 0x2e, 0x66, 0x69, 0x70, 0x61, 0x2e, 0x76, 0x31, 0x5f, 0x30, 0x5f, 0x30,
  0x2e, 0x46, 0x69, 0x70, 0x61, 0x4d, 0x65, 0x73, 0x73, 0x61, 0x67, 0x65, 0x2e, 0x4d, 0x61, 0x74,
  0x63, 0x68, 0x5f, 0x41, 0x63, 0x63, 0x65, 0x70, 0x74, 0x5f, 0x57, 0x5f, 0x49, 0x6e, 0x66, 0x6f,
  0x72, 0x6d, 0x5f, 0x50, 0x65, 0x72, 0x66, 0x6f, 0x72, 0x6d, 0x61, 0x74, 0x69, 0x76, 0x65, 0x2e,
  0x49, 0x6e, 0x66, 0x6f, 0x45, 0x6e, 0x74, 0x72, 0x79, 0x1a, 0x2b, 0x0a, 0x09, 0x49, 0x6e, 0x66,
  0x6f, 0x45, 0x6e, 0x74, 0x72, 0x79, 0x12, 0x0b, 0x0a, 0x03, 0x6b, 0x65, 0x79, 0x18, 0x01, 0x20,
  0x01, 0x28, 0x09, 0x12, 0x0d, 0x0a, 0x05, 0x76, 0x61, 0x6c, 0x75, 0x65, 0x18, 0x02, 0x20, 0x01,
  0x28, 0x09, 0x3a, 0x02, 0x38, 0x01, 0x1a, 0x94, 0x01, 0x0a, 0x13, 0x49, 0x6e, 0x66, 0x6f, 0x72,
  0x6d, 0x5f, 0x50, 0x65, 0x72, 0x66, 0x6f, 0x72, 0x6d, 0x61, 0x74, 0x69, 0x76, 0x65, 0x12, 0x50,
  0x0a, 0x04, 0x69, 0x6e, 0x66, 0x6f, 0x18, 0x01, 0x20, 0x03, 0x28, 0x0b, 0x32, 0x42, 0x2e, 0x61,
  0x65, 0x61, 0x2e, 0x66, 0x65, 0x74, 0x63, 0x68, 0x61, 0x69, 0x2e, 0x66, 0x69, 0x70, 0x61, 0x2e,
  0x76, 0x31, 0x5f, 0x30, 0x5f, 0x30, 0x2e, 0x46, 0x69, 0x70, 0x61, 0x4d, 0x65, 0x73, 0x73, 0x61,
  0x67, 0x65, 0x2e, 0x49, 0x6e, 0x66, 0x6f, 0x72, 0x6d, 0x5f, 0x50, 0x65, 0x72, 0x66, 0x6f, 0x72,
  0x6d, 0x61, 0x74, 0x69, 0x76, 0x65, 0x2e, 0x49, 0x6e, 0x66, 0x6f, 0x45, 0x6e, 0x74, 0x72, 0x79,
  0x1a, 0x2b, 0x0a, 0x09, 0x49, 0x6e, 0x66, 0x6f, 0x45, 0x6e, 0x74, 0x72, 0x79, 0x12, 0x0b, 0x0a,
  0x03, 0x6b, 0x65, 0x79, 0x18, 0x01, 0x20, 0x01, 0x28, 0x09, 0x12, 0x0d, 0x0a, 0x05, 0x76, 0x61,
  0x6c, 0x75, 0x65, 0x18, 0x02, 0x20, 0x01, 0x28, 0x09, 0x3a, 0x02, 0x38, 0x01, 0x1a, 0x15, 0x0a,
  0x13, 0x41, 0x63, 0x63, 0x65, 0x70, 0x74, 0x5f, 0x50, 0x65, 0x72, 0x66, 0x6f, 0x72, 0x6d, 0x61,
  0x74, 0x69, 0x76, 0x65, 0x1a, 0x16, 0x0a, 0x14, 0x44, 0x65, 0x63, 0x6c, 0x69, 0x6e, 0x65, 0x5f,
  0x50, 0x65, 0x72, 0x66, 0x6f, 0x72, 0x6d, 0x61, 0x74, 0x69, 0x76, 0x65, 0x1a, 0x1b, 0x0a, 0x19,
  0x4d, 0x61, 0x74, 0x63, 0x68, 0x5f, 0x41, 0x63, 0x63, 0x65, 0x70, 0x74, 0x5f, 0x50, 0x65, 0x72,
  0x66, 0x6f, 0x72, 0x6d, 0x61, 0x74, 0x69, 0x76, 0x65, 0x1a, 0x12, 0x0a, 0x10, 0x45, 0x6e, 0x64,
  0x5f, 0x50, 0x65, 0x72, 0x66, 0x6f, 0x72, 0x6d, 0x61, 0x74, 0x69, 0x76, 0x65, 0x42, 0x0e, 0x0a,
  0x0c, 0x70, 0x65, 0x72, 0x66, 0x6f, 0x72, 0x6d, 0x61, 0x74, 0x69, 0x76, 0x65, 0x62, 0x06, 0x70,
  0x72, 0x6f, 0x74, 0x6f, 0x33]

/-- packages/fetchai/protocols/default/default_pb2.py:17 -/
def defaultPy : Bytes := [
  0x0a, 0x0d, 0x64, 0x65, 0x66, 0x61, 0x75, 0x6c, 0x74, 0x2e, 0x70, 0x72, 0x6f, 0x74, 0x6f, 0x12,
  0x1a, 0x61, 0x65, 0x61, 0x2e, 0x66, 0x65, 0x74, 0x63, 0x68, 0x61, 0x69, 0x2e, 0x64, 0x65, 0x66,
  0x61, 0x75, 0x6c, 0x74, 0x2e, 0x76, 0x31, 0x5f, 0x30, 0x5f, 0x30, 0x22, 0xb6, 0x06, 0x0a, 0x0e,
  0x44, 0x65, 0x66, 0x61, 0x75, 0x6c, 0x74, 0x4d, 0x65, 0x73, 0x73, 0x61, 0x67, 0x65, 0x12, 0x4e,
  0x0a, 0x05, 0x62, 0x79, 0x74, 0x65, 0x73, 0x18, 0x05, 0x20, 0x01, 0x28, 0x0b, 0x32, 0x3d, 0x2e,
  0x61, 0x65, 0x61, 0x2e, 0x66, 0x65, 0x74, 0x63, 0x68, 0x61, 0x69, 0x2e, 0x64, 0x65, 0x66, 0x61,
  0x75, 0x6c, 0x74, 0x2e, 0x76, 0x31, 0x5f, 0x30, 0x5f, 0x30, 0x2e, 0x44, 0x65, 0x66, 0x61, 0x75,
  0x6c, 0x74, 0x4d, 0x65, 0x73, 0x73, 0x61, 0x67, 0x65, 0x2e, 0x42, 0x79, 0x74, 0x65, 0x73, 0x5f,
  0x50, 0x65, 0x72, 0x66, 0x6f, 0x72, 0x6d, 0x61, 0x74, 0x69, 0x76, 0x65, 0x48, 0x00, 0x12, 0x4a,
  0x0a, 0x03, 0x65, 0x6e, 0x64, 0x18, 0x06, 0x20, 0x01, 0x28, 0x0b, 0x32, 0x3b, 0x2e, 0x61, 0x65,
  0x61, 0x2e, 0x66, 0x65, 0x74, 0x63, 0x68, 0x61, 0x69, 0x2e, 0x64, 0x65, 0x66, 0x61, 0x75, 0x6c,
  0x74, 0x2e, 0x76, 0x31, 0x5f, 0x30, 0x5f, 0x30, 0x2e, 0x44, 0x65, 0x66, 0x61, 0x75, 0x6c, 0x74,
  0x4d, 0x65, 0x73, 0x73, 0x61, 0x67, 0x65, 0x2e, 0x45, 0x6e, 0x64, 0x5f, 0x50, 0x65, 0x72, 0x66,
  0x6f, 0x72, 0x6d, 0x61, 0x74, 0x69, 0x76, 0x65, 0x48, 0x00, 0x12, 0x4e, 0x0a, 0x05, 0x65, 0x72,
  0x72, 0x6f, 0x72, 0x18, 0x07, 0x20, 0x01, 0x28, 0x0b, 0x32, 0x3d, 0x2e, 0x61, 0x65, 0x61, 0x2e,
  0x66, 0x65, 0x74, 0x63, 0x68, 0x61, 0x69, 0x2e, 0x64, 0x65, 0x66, 0x61, 0x75, 0x6c, 0x74, 0x2e,
  0x76, 0x31, 0x5f, 0x30, 0x5f, 0x30, 0x2e, 0x44, 0x65, 0x66, 0x61, 0x75, 0x6c, 0x74, 0x4d, 0x65,
  0x73, 0x73, 0x61, 0x67, 0x65, 0x2e, 0x45, 0x72, 0x72, 0x6f, 0x72, 0x5f, 0x50, 0x65, 0x72, 0x66,
  0x6f, 0x72, 0x6d, 0x61, 0x74, 0x69, 0x76, 0x65, 0x48, 0x00, 0x1a, 0xe4, 0x01, 0x0a, 0x09, 0x45,
  0x72, 0x72, 0x6f, 0x72, 0x43, 0x6f, 0x64, 0x65, 0x12, 0x56, 0x0a, 0x0a, 0x65, 0x72, 0x72, 0x6f,
  0x72, 0x5f, 0x63, 0x6f, 0x64, 0x65, 0x18, 0x01, 0x20, 0x01, 0x28, 0x0e, 0x32, 0x42, 0x2e, 0x61,
  0x65, 0x61, 0x2e, 0x66, 0x65, 0x74, 0x63, 0x68, 0x61, 0x69, 0x2e, 0x64, 0x65, 0x66, 0x61, 0x75,
  0x6c, 0x74, 0x2e, 0x76, 0x31, 0x5f, 0x30, 0x5f, 0x30, 0x2e, 0x44, 0x65, 0x66, 0x61, 0x75, 0x6c,
  0x74, 0x4d, 0x65, 0x73, 0x73, 0x61, 0x67, 0x65, 0x2e, 0x45, 0x72, 0x72, 0x6f, 0x72, 0x43, 0x6f,
  0x64, 0x65, 0x2e, 0x45, 0x72, 0x72, 0x6f, 0x72, 0x43, 0x6f, 0x64, 0x65, 0x45, 0x6e, 0x75, 0x6d,
  0x22, 0x7f, 0x0a, 0x0d, 0x45, 0x72, 0x72, 0x6f, 0x72, 0x43, 0x6f, 0x64, 0x65, 0x45, 0x6e, 0x75,
  0x6d, 0x12, 0x18, 0x0a, 0x14, 0x55, 0x4e, 0x53, 0x55, 0x50, 0x50, 0x4f, 0x52, 0x54, 0x45, 0x44,
  0x5f, 0x50, 0x52, 0x4f, 0x54, 0x4f, 0x43, 0x4f, 0x4c, 0x10, 0x00, 0x12, 0x12, 0x0a, 0x0e, 0x44,
  0x45, 0x43, 0x4f, 0x44, 0x49, 0x4e, 0x47, 0x5f, 0x45, 0x52, 0x52, 0x4f, 0x52, 0x10, 0x01, 0x12,
  0x13, 0x0a, 0x0f, 0x49, 0x4e, 0x56, 0x41, 0x4c, 0x49, 0x44, 0x5f, 0x4d, 0x45, 0x53, 0x53, 0x41,
  0x47, 0x45, 0x10, 0x02, 0x12, 0x15, 0x0a, 0x11, 0x55, 0x4e, 0x53, 0x55, 0x50, 0x50, 0x4f, 0x52,
  0x54, 0x45, 0x44, 0x5f, 0x53, 0x4b, 0x49, 0x4c, 0x4c, 0x10, 0x03, 0x12, 0x14, 0x0a, 0x10, 0x49,
  0x4e, 0x56, 0x41, 0x4c, 0x49, 0x44, 0x5f, 0x44, 0x49, 0x41, 0x4c, 0x4f, 0x47, 0x55, 0x45, 0x10,
  0x04, 0x1a, 0x25, 0x0a, 0x12, 0x42, 0x79, 0x74, 0x65, 0x73, 0x5f, 0x50, 0x65, 0x72, 0x66, 0x6f,
  0x72, 0x6d, 0x61, 0x74, 0x69, 0x76, 0x65, 0x12, 0x0f, 0x0a, 0x07, 0x63, 0x6f, 0x6e, 0x74, 0x65,
  0x6e, 0x74, 0x18, 0x01, 0x20, 0x01, 0x28, 0x0c, 0x1a, 0x85, 0x02, 0x0a, 0x12, 0x45, 0x72, 0x72,
  0x6f, 0x72, 0x5f, 0x50, 0x65, 0x72, 0x66, 0x6f, 0x72, 0x6d, 0x61, 0x74, 0x69, 0x76, 0x65, 0x12,
  0x48, 0x0a, 0x0a, 0x65, 0x72, 0x72, 0x6f, 0x72, 0x5f, 0x63, 0x6f, 0x64, 0x65, 0x18, 0x01, 0x20,
  0x01, 0x28, 0x0b, 0x32, 0x34, 0x2e, 0x61, 0x65, 0x61, 0x2e, 0x66, 0x65, 0x74, 0x63, 0x68, 0x61,
  0x69, 0x2e, 0x64, 0x65, 0x66, 0x61, 0x75, 0x6c, 0x74, 0x2e, 0x76, 0x31, 0x5f, 0x30, 0x5f, 0x30,
  0x2e, 0x44, 0x65, 0x66, 0x61, 0x75, 0x6c, 0x74, 0x4d, 0x65, 0x73, 0x73, 0x61, 0x67, 0x65, 0x2e,
  0x45, 0x72, 0x72, 0x6f, 0x72, 0x43, 0x6f, 0x64, 0x65, 0x12, 0x11, 0x0a, 0x09, 0x65, 0x72, 0x72,
  0x6f, 0x72, 0x5f, 0x6d, 0x73, 0x67, 0x18, 0x02, 0x20, 0x01, 0x28, 0x09, 0x12, 0x60, 0x0a, 0x0a,
  0x65, 0x72, 0x72, 0x6f, 0x72, 0x5f, 0x64, 0x61, 0x74, 0x61, 0x18, 0x03, 0x20, 0x03, 0x28, 0x0b,
  0x32, 0x4c, 0x2e, 0x61, 0x65, 0x61, 0x2e, 0x66, 0x65, 0x74, 0x63, 0x68, 0x61, 0x69, 0x2e, 0x64,
  0x65, 0x66, 0x61, 0x75, 0x6c, 0x74, 0x2e, 0x76, 0x31, 0x5f, 0x30, 0x5f, 0x30, 0x2e, 0x44, 0x65,
  0x66, 0x61, 0x75, 0x6c, 0x74, 0x4d, 0x65, 0x73, 0x73, 0x61, 0x67, 0x65, 0x2e, 0x45, 0x72, 0x72,
  0x6f, 0x72, 0x5f, 0x50, 0x65, 0x72, 0x66, 0x6f, 0x72, 0x6d, 0x61, 0x74, 0x69, 0x76, 0x65, 0x2e,
  0x45, 0x72, 0x72, 0x6f, 0x72, 0x44, 0x61, 0x74, 0x61, 0x45, 0x6e, 0x74, 0x72, 0x79, 0x1a, 0x30,
  0x0a, 0x0e, 0x45, 0x72, 0x72, 0x6f, 0x72, 0x44, 0x61, 0x74, 0x61, 0x45, 0x6e, 0x74, 0x72, 0x79,
  0x12, 0x0b, 0x0a, 0x03, 0x6b, 0x65, 0x79, 0x18, 0x01, 0x20, 0x01, 0x28, 0x09, 0x12, 0x0d, 0x0a,
  0x05, 0x76, 0x61, 0x6c, 0x75, 0x65, 0x18, 0x02, 0x20, 0x01, 0x28, 0x0c, 0x3a, 0x02, 0x38, 0x01,
  0x1a, 0x12, 0x0a, 0x10, 0x45, 0x6e, 0x64, 0x5f, 0x50, 0x65, 0x72, 0x66, 0x6f, 0x72, 0x6d, 0x61,
  0x74, 0x69, 0x76, 0x65, 0x42, 0x0e, 0x0a, 0x0c, 0x70, 0x65, 0x72, 0x66, 0x6f, 0x72, 0x6d, 0x61,
  0x74, 0x69, 0x76, 0x65, 0x62, 0x06, 0x70, 0x72, 0x6f, 0x74, 0x6f, 0x33]

end Verif.PB
