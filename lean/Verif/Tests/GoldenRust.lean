/- Generated by tools/golden.py: the model reproduces the golden files of /repo/test_resources. -/
import Verif.Model.Parser
import Verif.Model.RustGen
import Verif.Model.ToCase
namespace TPB.Tests

private def src_empty_tpb : String := ""
private def src_struct_tpb : String := "struct Empty;\n\nstruct ViewData {\n    delta_time: f32,\n    view_width: f32,\n    view_height: f32,\n    touch_start_x: f32,\n    touch_start_y: f32,\n    last_touch_x: f32,\n    last_touch_y: f32,\n    touch_x: f32,\n    touch_y: f32,\n}\n\nstruct Test {\n    #[1] touch_x: f32,\n    #[2] touch_y: f32,\n    #[3] touch_status: TouchStatus,\n}\n\nstruct GenericType {\n    items: Vec<Test>,\n    table: LinearTable<f32, Test>,\n}\n"
private def src_enum_tpb : String := "enum MyEnum {\n    #[1] Idle,\n    #[2] Move {\n        #[1] x: f64,\n        #[2] y: f64,\n    },\n    #[3] Update(#[1] f64, #[2] f64, #[4] String),\n}\n\nenum MyEnumWithoutPositions {\n    Option1(u64),\n    Option2 { name: String },\n    Option3,\n    Option4,\n}\n"
private def src_rpc_sync_methods_tpb : String := "#[id = \"4de616f8-12c5-4d2c-8d48-9c5fb038991f\"]\n#[namespace = \"examples_sync\"]\n\nfn print_hello_world();\n\nfn hello_world() -> String;\n\nfn say_hello(name: String) -> String;\n\nfn sum(a: i32, b: f32, c: f64) -> f64;\n"
private def src_rpc_async_methods_tpb : String := "#[id = \"106c2228-ff3b-45c5-8a55-db9c0537f275\"]\n#[namespace = \"examples_async\"]\n\nasync fn print_hello_world();\n\nasync fn hello_world() -> String;\n\nasync fn say_hello(name: String) -> String;\n\nasync fn sum(a: i32, b: f32, c: f64) -> f64;\n"
private def src_rpc_read_methods_tpb : String := "#[id = \"723ca727-6a66-43a7-bfcc-b8ad94eac9be\"]\n#[namespace = \"examples_read\"]\n\nread counter;\n\nread theme -> String;\n\nasync read async_trigger;\n\nasync read async_hello_read -> String;\n"
private def src_rpc_methods_tpb : String := "#[id = \"4de616f8-12c5-4d2c-8d48-9c5fb038991f\"]\n#[namespace = \"test\"]\n\nfn print_hello_world();\n\nfn hello_world() -> String;\n\nfn say_hello(name: String) -> String;\n\nfn sum(a: i32, b: f32, c: f64);\n\nasync fn print_hello_world_async();\n\nasync fn hello_world_async() -> String;\n\nasync fn say_hello_async(name: String) -> String;\n\nasync fn sum_async(a: i32, b: f32, c: f64) -> f64;\n\nread trigger;\n\nread theme -> Theme;\n\nasync read trigger_async;\n\nasync read theme_async -> Theme;\n"
private def src_consts_tpb : String := "const commands {\n    DRAW_LINES: u64 = 0x0002_0001;\n    DRAW_PATH: u64 = 0x0002_0002;\n    DRAW_QUADS: u64 = 0x0002_0003;\n    DRAW_CENTERED_QUADS: u64 = 0x0002_0004;\n    DRAW_TEXTS: u64 = 0x0002_0005;\n    SET_COLOR_PIPELINE: u64 = 0x0002_0006;\n    SET_TEXTURE_PIPELINE: u64 = 0x0002_0007;\n    DRAW_CIRCLES: u64 = 0x0002_0008;\n    DRAW_HOLLOW_CIRCLES: u64 = 0x0002_0009;\n}\n\nconst addr {\n    SOME_VALUE: String = \"Hello World!\";\n\n    const groups {\n        MAIN: GroupAddress = 0;\n        MAIN_RENDER: GroupAddress = 1;\n        RPC: GroupAddress = 2;\n        RPC_SYNC: GroupAddress = 3;\n        RPC_READ: GroupAddress = 4;\n    }\n\n    DELTA_TIME: f64 = 16.6;\n    FLAG: bool = true;\n\n    const commands_buffers {\n        WIN1_MAIN_RENDER: CommandsBufferAddress = 0;\n    }\n}\n"

private def run (src : String) (f : List ASTNode → Except Panic String) (expected : String) : Bool :=
  match parseSource src with
  | .error _ => false
  | .ok ast => match f ast with
    | .ok s => s == expected
    | .error _ => false

#guard run src_empty_tpb (fun ast => RustGen.generate testExt ast true true true)
  "// GENERATED, DO NOT EDIT\n\n#![allow(warnings)]\n#![allow(clippy)]\n#![allow(unknown_lints)]\n\nuse tech_paws_buffers::{BytesReader, BytesWriter, IntoVMBuffers};\n"
#guard run src_struct_tpb (fun ast => RustGen.models ast)
  "#[derive(Debug, Clone, PartialEq)]\npub struct Empty;\n\nimpl Default for Empty {\n    fn default() -> Self {\n        Self\n    }\n}\n\n#[derive(Debug, Clone, PartialEq)]\npub struct ViewData {\n    pub delta_time: f32,\n    pub view_width: f32,\n    pub view_height: f32,\n    pub touch_start_x: f32,\n    pub touch_start_y: f32,\n    pub last_touch_x: f32,\n    pub last_touch_y: f32,\n    pub touch_x: f32,\n    pub touch_y: f32,\n}\n\nimpl Default for ViewData {\n    fn default() -> Self {\n        Self {\n            delta_time: 0.0,\n            view_width: 0.0,\n            view_height: 0.0,\n            touch_start_x: 0.0,\n            touch_start_y: 0.0,\n            last_touch_x: 0.0,\n            last_touch_y: 0.0,\n            touch_x: 0.0,\n            touch_y: 0.0,\n        }\n    }\n}\n\n#[derive(Debug, Clone, PartialEq)]\npub struct Test {\n    pub touch_x: f32,\n    pub touch_y: f32,\n    pub touch_status: TouchStatus,\n}\n\nimpl Default for Test {\n    fn default() -> Self {\n        Self {\n            touch_x: 0.0,\n            touch_y: 0.0,\n            touch_status: TouchStatus::default(),\n        }\n    }\n}\n\n#[derive(Debug, Clone, PartialEq)]\npub struct GenericType {\n    pub items: Vec<Test>,\n    pub table: LinearTable<f32, Test>,\n}\n\nimpl Default for GenericType {\n    fn default() -> Self {\n        Self {\n            items: Vec::<Test>::default(),\n            table: LinearTable::<f32, Test>::default(),\n        }\n    }\n}\n"
#guard run src_enum_tpb (fun ast => RustGen.models ast)
  "#[derive(Debug, Clone, PartialEq)]\npub enum MyEnum {\n    Idle,\n    Move {\n        x: f64,\n        y: f64,\n    },\n    Update(\n        f64,\n        f64,\n        String,\n    ),\n}\n\nimpl Default for MyEnum {\n    fn default() -> Self {\n        Self::Idle\n    }\n}\n\n#[derive(Debug, Clone, PartialEq)]\npub enum MyEnumWithoutPositions {\n    Option1(\n        u64,\n    ),\n    Option2 {\n        name: String,\n    },\n    Option3,\n    Option4,\n}\n\nimpl Default for MyEnumWithoutPositions {\n    fn default() -> Self {\n        Self::Option1(\n            0,\n        )\n    }\n}\n"
#guard run src_struct_tpb (fun ast => .ok (RustGen.buffers ast))
  "impl IntoVMBuffers for Empty {\n    fn read_from_buffers(_: &mut BytesReader) -> Self {\n        Empty\n    }\n\n    fn write_to_buffers(&self, _: &mut BytesWriter) {}\n\n    fn skip_in_buffers(_: &mut BytesReader, _: u64) {}\n}\n\nimpl IntoVMBuffers for ViewData {\n    fn read_from_buffers(bytes_reader: &mut BytesReader) -> Self {\n        Self {\n            delta_time: bytes_reader.read_f32(),\n            view_width: bytes_reader.read_f32(),\n            view_height: bytes_reader.read_f32(),\n            touch_start_x: bytes_reader.read_f32(),\n            touch_start_y: bytes_reader.read_f32(),\n            last_touch_x: bytes_reader.read_f32(),\n            last_touch_y: bytes_reader.read_f32(),\n            touch_x: bytes_reader.read_f32(),\n            touch_y: bytes_reader.read_f32(),\n        }\n    }\n\n    fn write_to_buffers(&self, bytes_writer: &mut BytesWriter) {\n        bytes_writer.write_f32(self.delta_time);\n        bytes_writer.write_f32(self.view_width);\n        bytes_writer.write_f32(self.view_height);\n        bytes_writer.write_f32(self.touch_start_x);\n        bytes_writer.write_f32(self.touch_start_y);\n        bytes_writer.write_f32(self.last_touch_x);\n        bytes_writer.write_f32(self.last_touch_y);\n        bytes_writer.write_f32(self.touch_x);\n        bytes_writer.write_f32(self.touch_y);\n    }\n\n    fn skip_in_buffers(bytes_reader: &mut BytesReader, count: u64) {\n        for _ in 0..count {\n            bytes_reader.read_f32();\n            bytes_reader.read_f32();\n            bytes_reader.read_f32();\n            bytes_reader.read_f32();\n            bytes_reader.read_f32();\n            bytes_reader.read_f32();\n            bytes_reader.read_f32();\n            bytes_reader.read_f32();\n            bytes_reader.read_f32();\n        }\n    }\n}\n\nimpl IntoVMBuffers for Test {\n    fn read_from_buffers(bytes_reader: &mut BytesReader) -> Self {\n        Self {\n            touch_x: bytes_reader.read_f32(),\n            touch_y: bytes_reader.read_f32(),\n            touch_status: TouchStatus::read_from_buffers(bytes_reader),\n        }\n    }\n\n    fn write_to_buffers(&self, bytes_writer: &mut BytesWriter) {\n        bytes_writer.write_f32(self.touch_x);\n        bytes_writer.write_f32(self.touch_y);\n        self.touch_status.write_to_buffers(bytes_writer);\n    }\n\n    fn skip_in_buffers(bytes_reader: &mut BytesReader, count: u64) {\n        for _ in 0..count {\n            bytes_reader.read_f32();\n            bytes_reader.read_f32();\n            TouchStatus::read_from_buffers(bytes_reader);\n        }\n    }\n}\n\nimpl IntoVMBuffers for GenericType {\n    fn read_from_buffers(bytes_reader: &mut BytesReader) -> Self {\n        Self {\n            items: Vec::<Test>::read_from_buffers(bytes_reader),\n            table: LinearTable::<f32, Test>::read_from_buffers(bytes_reader),\n        }\n    }\n\n    fn write_to_buffers(&self, bytes_writer: &mut BytesWriter) {\n        self.items.write_to_buffers(bytes_writer);\n        self.table.write_to_buffers(bytes_writer);\n    }\n\n    fn skip_in_buffers(bytes_reader: &mut BytesReader, count: u64) {\n        for _ in 0..count {\n            Vec::<Test>::read_from_buffers(bytes_reader);\n            LinearTable::<f32, Test>::read_from_buffers(bytes_reader);\n        }\n    }\n}\n"
#guard run src_enum_tpb (fun ast => .ok (RustGen.buffers ast))
  "impl IntoVMBuffers for MyEnum {\n    fn read_from_buffers(bytes_reader: &mut BytesReader) -> Self {\n        let value = bytes_reader.read_u32();\n\n        match value {\n            1 => return MyEnum::Idle,\n            2 => return MyEnum::Move {\n                x: bytes_reader.read_f64(),\n                y: bytes_reader.read_f64(),\n            },\n            3 => return MyEnum::Update(\n                bytes_reader.read_f64(),\n                bytes_reader.read_f64(),\n                String::read_from_buffers(bytes_reader),\n            ),\n            _ => panic!(\"Unsupported enum value: {}\", value),\n        }\n    }\n\n    fn write_to_buffers(&self, bytes_writer: &mut BytesWriter) {\n        match self {\n            MyEnum::Idle => {\n                bytes_writer.write_u32(1);\n            },\n            MyEnum::Move {\n                x,\n                y,\n            } => {\n                bytes_writer.write_u32(2);\n                bytes_writer.write_f64(*x);\n                bytes_writer.write_f64(*y);\n            },\n            MyEnum::Update(\n                v0,\n                v1,\n                v2,\n            ) => {\n                bytes_writer.write_u32(3);\n                bytes_writer.write_f64(*v0);\n                bytes_writer.write_f64(*v1);\n                v2.write_to_buffers(bytes_writer);\n            },\n        }\n    }\n\n    fn skip_in_buffers(bytes_reader: &mut BytesReader, count: u64) {\n        for _ in 0..count {\n            let value = bytes_reader.read_u32();\n\n            match value {\n                1 => (),\n                2 => {\n                    bytes_reader.read_f64();\n                    bytes_reader.read_f64();\n                },\n                3 => {\n                    bytes_reader.read_f64();\n                    bytes_reader.read_f64();\n                    String::read_from_buffers(bytes_reader);\n                },\n                _ => panic!(\"Unsupported enum value: {}\", value),\n            }\n        }\n    }\n}\n\nimpl IntoVMBuffers for MyEnumWithoutPositions {\n    fn read_from_buffers(bytes_reader: &mut BytesReader) -> Self {\n        let value = bytes_reader.read_u32();\n\n        match value {\n            0 => return MyEnumWithoutPositions::Option1(\n                bytes_reader.read_u64(),\n            ),\n            1 => return MyEnumWithoutPositions::Option2 {\n                name: String::read_from_buffers(bytes_reader),\n            },\n            2 => return MyEnumWithoutPositions::Option3,\n            3 => return MyEnumWithoutPositions::Option4,\n            _ => panic!(\"Unsupported enum value: {}\", value),\n        }\n    }\n\n    fn write_to_buffers(&self, bytes_writer: &mut BytesWriter) {\n        match self {\n            MyEnumWithoutPositions::Option1(\n                v0,\n            ) => {\n                bytes_writer.write_u32(0);\n                bytes_writer.write_u64(*v0);\n            },\n            MyEnumWithoutPositions::Option2 {\n                name,\n            } => {\n                bytes_writer.write_u32(1);\n                name.write_to_buffers(bytes_writer);\n            },\n            MyEnumWithoutPositions::Option3 => {\n                bytes_writer.write_u32(2);\n            },\n            MyEnumWithoutPositions::Option4 => {\n                bytes_writer.write_u32(3);\n            },\n        }\n    }\n\n    fn skip_in_buffers(bytes_reader: &mut BytesReader, count: u64) {\n        for _ in 0..count {\n            let value = bytes_reader.read_u32();\n\n            match value {\n                0 => {\n                    bytes_reader.read_u64();\n                },\n                1 => {\n                    String::read_from_buffers(bytes_reader);\n                },\n                2 => (),\n                3 => (),\n                _ => panic!(\"Unsupported enum value: {}\", value),\n            }\n        }\n    }\n}\n"
#guard run src_rpc_sync_methods_tpb (fun ast => RustGen.rpc ast)
  "pub fn register_rpc(runtime: &mut TechPawsRuntime, addr: &TechPawsRpcAddress) {\n    let scope_id = TechPawsScopeId(uuid!(\"4de616f8-12c5-4d2c-8d48-9c5fb038991f\"));\n    runtime.memory.add_scope(scope_id);\n    runtime.register_sync_rpc_method(\n        addr.sync_group_address,\n        scope_id,\n        RpcMethodAddress(0),\n        print_hello_world_rpc_handler,\n    );\n    runtime.register_sync_rpc_method(\n        addr.sync_group_address,\n        scope_id,\n        RpcMethodAddress(1),\n        hello_world_rpc_handler,\n    );\n    runtime.register_sync_rpc_method(\n        addr.sync_group_address,\n        scope_id,\n        RpcMethodAddress(2),\n        say_hello_rpc_handler,\n    );\n    runtime.register_sync_rpc_method(\n        addr.sync_group_address,\n        scope_id,\n        RpcMethodAddress(3),\n        sum_rpc_handler,\n    );\n}\n\n#[derive(Debug, Clone, PartialEq)]\npub struct __print_hello_world_rpc_args__;\n\nimpl IntoVMBuffers for __print_hello_world_rpc_args__ {\n    fn read_from_buffers(_: &mut BytesReader) -> Self {\n        __print_hello_world_rpc_args__\n    }\n\n    fn write_to_buffers(&self, _: &mut BytesWriter) {}\n\n    fn skip_in_buffers(_: &mut BytesReader, _: u64) {}\n}\n\npub fn print_hello_world_rpc_handler(\n    scope_id: TechPawsScopeId,\n    memory: &mut TechPawsRuntimeMemory,\n    rpc_method_address: RpcMethodAddress,\n) -> bool {\n    let args = memory.get_scope_mut(scope_id).rpc_buffer_read(\n        rpc_method_address,\n        TechPawsRuntimeRpcMethodBuffer::Server,\n        |bytes_reader| {\n            let status = bytes_reader.read_u8();\n\n            if status == 0xFF {\n                Some(__print_hello_world_rpc_args__::read_from_buffers(bytes_reader))\n            } else {\n                None\n            }\n        },\n    );\n\n    if let Some(args) = &args {\n        memory.get_scope_mut(scope_id).rpc_buffer_write(\n            rpc_method_address,\n            TechPawsRuntimeRpcMethodBuffer::Server,\n            |bytes_writer| {\n                bytes_writer.write_u8(0x00);\n            },\n        );\n\n        print_hello_world();\n\n        memory.get_scope_mut(scope_id).rpc_buffer_write(\n            rpc_method_address,\n            TechPawsRuntimeRpcMethodBuffer::Client,\n            |bytes_writer| {\n                bytes_writer.write_u8(0xFF);\n            },\n        );\n    }\n\n    args.is_some()\n}\n\n#[derive(Debug, Clone, PartialEq)]\npub struct __hello_world_rpc_args__;\n\nimpl IntoVMBuffers for __hello_world_rpc_args__ {\n    fn read_from_buffers(_: &mut BytesReader) -> Self {\n        __hello_world_rpc_args__\n    }\n\n    fn write_to_buffers(&self, _: &mut BytesWriter) {}\n\n    fn skip_in_buffers(_: &mut BytesReader, _: u64) {}\n}\n\npub fn hello_world_rpc_handler(\n    scope_id: TechPawsScopeId,\n    memory: &mut TechPawsRuntimeMemory,\n    rpc_method_address: RpcMethodAddress,\n) -> bool {\n    let args = memory.get_scope_mut(scope_id).rpc_buffer_read(\n        rpc_method_address,\n        TechPawsRuntimeRpcMethodBuffer::Server,\n        |bytes_reader| {\n            let status = bytes_reader.read_u8();\n\n            if status == 0xFF {\n                Some(__hello_world_rpc_args__::read_from_buffers(bytes_reader))\n            } else {\n                None\n            }\n        },\n    );\n\n    if let Some(args) = &args {\n        memory.get_scope_mut(scope_id).rpc_buffer_write(\n            rpc_method_address,\n            TechPawsRuntimeRpcMethodBuffer::Server,\n            |bytes_writer| {\n                bytes_writer.write_u8(0x00);\n            },\n        );\n\n        let result = hello_world();\n\n        memory.get_scope_mut(scope_id).rpc_buffer_write(\n            rpc_method_address,\n            TechPawsRuntimeRpcMethodBuffer::Client,\n            |bytes_writer| {\n                bytes_writer.write_u8(0xFF);\n                result.write_to_buffers(bytes_writer);\n            },\n        );\n    }\n\n    args.is_some()\n}\n\n#[derive(Debug, Clone, PartialEq)]\npub struct __say_hello_rpc_args__ {\n    pub name: String,\n}\n\nimpl IntoVMBuffers for __say_hello_rpc_args__ {\n    fn read_from_buffers(bytes_reader: &mut BytesReader) -> Self {\n        Self {\n            name: String::read_from_buffers(bytes_reader),\n        }\n    }\n\n    fn write_to_buffers(&self, bytes_writer: &mut BytesWriter) {\n        self.name.write_to_buffers(bytes_writer);\n    }\n\n    fn skip_in_buffers(bytes_reader: &mut BytesReader, count: u64) {\n        for _ in 0..count {\n            String::read_from_buffers(bytes_reader);\n        }\n    }\n}\n\npub fn say_hello_rpc_handler(\n    scope_id: TechPawsScopeId,\n    memory: &mut TechPawsRuntimeMemory,\n    rpc_method_address: RpcMethodAddress,\n) -> bool {\n    let args = memory.get_scope_mut(scope_id).rpc_buffer_read(\n        rpc_method_address,\n        TechPawsRuntimeRpcMethodBuffer::Server,\n        |bytes_reader| {\n            let status = bytes_reader.read_u8();\n\n            if status == 0xFF {\n                Some(__say_hello_rpc_args__::read_from_buffers(bytes_reader))\n            } else {\n                None\n            }\n        },\n    );\n\n    if let Some(args) = &args {\n        memory.get_scope_mut(scope_id).rpc_buffer_write(\n            rpc_method_address,\n            TechPawsRuntimeRpcMethodBuffer::Server,\n            |bytes_writer| {\n                bytes_writer.write_u8(0x00);\n            },\n        );\n\n        let result = say_hello(\n            args.clone().name,\n        );\n\n        memory.get_scope_mut(scope_id).rpc_buffer_write(\n            rpc_method_address,\n            TechPawsRuntimeRpcMethodBuffer::Client,\n            |bytes_writer| {\n                bytes_writer.write_u8(0xFF);\n                result.write_to_buffers(bytes_writer);\n            },\n        );\n    }\n\n    args.is_some()\n}\n\n#[derive(Debug, Clone, PartialEq)]\npub struct __sum_rpc_args__ {\n    pub a: i32,\n    pub b: f32,\n    pub c: f64,\n}\n\nimpl IntoVMBuffers for __sum_rpc_args__ {\n    fn read_from_buffers(bytes_reader: &mut BytesReader) -> Self {\n        Self {\n            a: bytes_reader.read_i32(),\n            b: bytes_reader.read_f32(),\n            c: bytes_reader.read_f64(),\n        }\n    }\n\n    fn write_to_buffers(&self, bytes_writer: &mut BytesWriter) {\n        bytes_writer.write_i32(self.a);\n        bytes_writer.write_f32(self.b);\n        bytes_writer.write_f64(self.c);\n    }\n\n    fn skip_in_buffers(bytes_reader: &mut BytesReader, count: u64) {\n        for _ in 0..count {\n            bytes_reader.read_i32();\n            bytes_reader.read_f32();\n            bytes_reader.read_f64();\n        }\n    }\n}\n\npub fn sum_rpc_handler(\n    scope_id: TechPawsScopeId,\n    memory: &mut TechPawsRuntimeMemory,\n    rpc_method_address: RpcMethodAddress,\n) -> bool {\n    let args = memory.get_scope_mut(scope_id).rpc_buffer_read(\n        rpc_method_address,\n        TechPawsRuntimeRpcMethodBuffer::Server,\n        |bytes_reader| {\n            let status = bytes_reader.read_u8();\n\n            if status == 0xFF {\n                Some(__sum_rpc_args__::read_from_buffers(bytes_reader))\n            } else {\n                None\n            }\n        },\n    );\n\n    if let Some(args) = &args {\n        memory.get_scope_mut(scope_id).rpc_buffer_write(\n            rpc_method_address,\n            TechPawsRuntimeRpcMethodBuffer::Server,\n            |bytes_writer| {\n                bytes_writer.write_u8(0x00);\n            },\n        );\n\n        let result = sum(\n            args.clone().a,\n            args.clone().b,\n            args.clone().c,\n        );\n\n        memory.get_scope_mut(scope_id).rpc_buffer_write(\n            rpc_method_address,\n            TechPawsRuntimeRpcMethodBuffer::Client,\n            |bytes_writer| {\n                bytes_writer.write_u8(0xFF);\n                bytes_writer.write_f64(result);\n            },\n        );\n    }\n\n    args.is_some()\n}\n"
#guard run src_rpc_async_methods_tpb (fun ast => RustGen.rpc ast)
  "pub fn register_rpc(runtime: &mut TechPawsRuntime, addr: &TechPawsRpcAddress) {\n    let scope_id = TechPawsScopeId(uuid!(\"106c2228-ff3b-45c5-8a55-db9c0537f275\"));\n    runtime.memory.add_scope(scope_id);\n    runtime.register_async_rpc_method(\n        addr.async_group_address,\n        scope_id,\n        RpcMethodAddress(0),\n        print_hello_world_rpc_handler,\n    );\n    runtime.register_async_rpc_method(\n        addr.async_group_address,\n        scope_id,\n        RpcMethodAddress(1),\n        hello_world_rpc_handler,\n    );\n    runtime.register_async_rpc_method(\n        addr.async_group_address,\n        scope_id,\n        RpcMethodAddress(2),\n        say_hello_rpc_handler,\n    );\n    runtime.register_async_rpc_method(\n        addr.async_group_address,\n        scope_id,\n        RpcMethodAddress(3),\n        sum_rpc_handler,\n    );\n}\n\n#[derive(Debug, Clone, PartialEq)]\npub struct __print_hello_world_rpc_args__ {\n    pub __method_id__: i64,\n}\n\nimpl IntoVMBuffers for __print_hello_world_rpc_args__ {\n    fn read_from_buffers(bytes_reader: &mut BytesReader) -> Self {\n        Self {\n            __method_id__: bytes_reader.read_i64(),\n        }\n    }\n\n    fn write_to_buffers(&self, bytes_writer: &mut BytesWriter) {\n        bytes_writer.write_i64(self.__method_id__);\n    }\n\n    fn skip_in_buffers(bytes_reader: &mut BytesReader, count: u64) {\n        for _ in 0..count {\n            bytes_reader.read_i64();\n        }\n    }\n}\n\npub fn print_hello_world_rpc_handler(\n    scope_id: TechPawsScopeId,\n    runtime_as_mut: unsafe fn() -> &'static mut TechPawsRuntime,\n    memory: &mut TechPawsRuntimeMemory,\n    async_context: &mut TechPawsRuntimeAsyncContext,\n    rpc_method_address: RpcMethodAddress,\n) -> bool {\n    let args = memory.get_scope_mut(scope_id).rpc_buffer_read(\n        rpc_method_address,\n        TechPawsRuntimeRpcMethodBuffer::Server,\n        |bytes_reader| {\n            let status = bytes_reader.read_u8();\n\n            if status == 0xFF {\n                Some(__print_hello_world_rpc_args__::read_from_buffers(bytes_reader))\n            } else {\n                None\n            }\n        },\n    );\n\n    if let Some(args) = &args {\n        memory.get_scope_mut(scope_id).rpc_buffer_write(\n            rpc_method_address,\n            TechPawsRuntimeRpcMethodBuffer::Server,\n            |bytes_writer| {\n                bytes_writer.write_u8(0x00);\n            },\n        );\n\n        let args = args.clone();\n\n        async_context.async_spawner.spawn(async move {\n            let memory = unsafe { &mut runtime_as_mut().memory };\n            print_hello_world().await;\n\n            memory.get_scope_mut(scope_id).rpc_buffer_write(\n                rpc_method_address,\n                TechPawsRuntimeRpcMethodBuffer::Client,\n                |bytes_writer| {\n                    bytes_writer.write_u8(0xFF);\n                    bytes_writer.write_i64(args.__method_id__);\n                },\n            );\n        });\n    }\n\n    args.is_some()\n}\n\n#[derive(Debug, Clone, PartialEq)]\npub struct __hello_world_rpc_args__ {\n    pub __method_id__: i64,\n}\n\nimpl IntoVMBuffers for __hello_world_rpc_args__ {\n    fn read_from_buffers(bytes_reader: &mut BytesReader) -> Self {\n        Self {\n            __method_id__: bytes_reader.read_i64(),\n        }\n    }\n\n    fn write_to_buffers(&self, bytes_writer: &mut BytesWriter) {\n        bytes_writer.write_i64(self.__method_id__);\n    }\n\n    fn skip_in_buffers(bytes_reader: &mut BytesReader, count: u64) {\n        for _ in 0..count {\n            bytes_reader.read_i64();\n        }\n    }\n}\n\npub fn hello_world_rpc_handler(\n    scope_id: TechPawsScopeId,\n    runtime_as_mut: unsafe fn() -> &'static mut TechPawsRuntime,\n    memory: &mut TechPawsRuntimeMemory,\n    async_context: &mut TechPawsRuntimeAsyncContext,\n    rpc_method_address: RpcMethodAddress,\n) -> bool {\n    let args = memory.get_scope_mut(scope_id).rpc_buffer_read(\n        rpc_method_address,\n        TechPawsRuntimeRpcMethodBuffer::Server,\n        |bytes_reader| {\n            let status = bytes_reader.read_u8();\n\n            if status == 0xFF {\n                Some(__hello_world_rpc_args__::read_from_buffers(bytes_reader))\n            } else {\n                None\n            }\n        },\n    );\n\n    if let Some(args) = &args {\n        memory.get_scope_mut(scope_id).rpc_buffer_write(\n            rpc_method_address,\n            TechPawsRuntimeRpcMethodBuffer::Server,\n            |bytes_writer| {\n                bytes_writer.write_u8(0x00);\n            },\n        );\n\n        let args = args.clone();\n\n        async_context.async_spawner.spawn(async move {\n            let memory = unsafe { &mut runtime_as_mut().memory };\n            let result = hello_world().await;\n\n            memory.get_scope_mut(scope_id).rpc_buffer_write(\n                rpc_method_address,\n                TechPawsRuntimeRpcMethodBuffer::Client,\n                |bytes_writer| {\n                    bytes_writer.write_u8(0xFF);\n                    bytes_writer.write_i64(args.__method_id__);\n                    result.write_to_buffers(bytes_writer);\n                },\n            );\n        });\n    }\n\n    args.is_some()\n}\n\n#[derive(Debug, Clone, PartialEq)]\npub struct __say_hello_rpc_args__ {\n    pub __method_id__: i64,\n    pub name: String,\n}\n\nimpl IntoVMBuffers for __say_hello_rpc_args__ {\n    fn read_from_buffers(bytes_reader: &mut BytesReader) -> Self {\n        Self {\n            __method_id__: bytes_reader.read_i64(),\n            name: String::read_from_buffers(bytes_reader),\n        }\n    }\n\n    fn write_to_buffers(&self, bytes_writer: &mut BytesWriter) {\n        bytes_writer.write_i64(self.__method_id__);\n        self.name.write_to_buffers(bytes_writer);\n    }\n\n    fn skip_in_buffers(bytes_reader: &mut BytesReader, count: u64) {\n        for _ in 0..count {\n            bytes_reader.read_i64();\n            String::read_from_buffers(bytes_reader);\n        }\n    }\n}\n\npub fn say_hello_rpc_handler(\n    scope_id: TechPawsScopeId,\n    runtime_as_mut: unsafe fn() -> &'static mut TechPawsRuntime,\n    memory: &mut TechPawsRuntimeMemory,\n    async_context: &mut TechPawsRuntimeAsyncContext,\n    rpc_method_address: RpcMethodAddress,\n) -> bool {\n    let args = memory.get_scope_mut(scope_id).rpc_buffer_read(\n        rpc_method_address,\n        TechPawsRuntimeRpcMethodBuffer::Server,\n        |bytes_reader| {\n            let status = bytes_reader.read_u8();\n\n            if status == 0xFF {\n                Some(__say_hello_rpc_args__::read_from_buffers(bytes_reader))\n            } else {\n                None\n            }\n        },\n    );\n\n    if let Some(args) = &args {\n        memory.get_scope_mut(scope_id).rpc_buffer_write(\n            rpc_method_address,\n            TechPawsRuntimeRpcMethodBuffer::Server,\n            |bytes_writer| {\n                bytes_writer.write_u8(0x00);\n            },\n        );\n\n        let args = args.clone();\n\n        async_context.async_spawner.spawn(async move {\n            let memory = unsafe { &mut runtime_as_mut().memory };\n            let result = say_hello(\n                args.clone().name,\n            ).await;\n\n            memory.get_scope_mut(scope_id).rpc_buffer_write(\n                rpc_method_address,\n                TechPawsRuntimeRpcMethodBuffer::Client,\n                |bytes_writer| {\n                    bytes_writer.write_u8(0xFF);\n                    bytes_writer.write_i64(args.__method_id__);\n                    result.write_to_buffers(bytes_writer);\n                },\n            );\n        });\n    }\n\n    args.is_some()\n}\n\n#[derive(Debug, Clone, PartialEq)]\npub struct __sum_rpc_args__ {\n    pub __method_id__: i64,\n    pub a: i32,\n    pub b: f32,\n    pub c: f64,\n}\n\nimpl IntoVMBuffers for __sum_rpc_args__ {\n    fn read_from_buffers(bytes_reader: &mut BytesReader) -> Self {\n        Self {\n            __method_id__: bytes_reader.read_i64(),\n            a: bytes_reader.read_i32(),\n            b: bytes_reader.read_f32(),\n            c: bytes_reader.read_f64(),\n        }\n    }\n\n    fn write_to_buffers(&self, bytes_writer: &mut BytesWriter) {\n        bytes_writer.write_i64(self.__method_id__);\n        bytes_writer.write_i32(self.a);\n        bytes_writer.write_f32(self.b);\n        bytes_writer.write_f64(self.c);\n    }\n\n    fn skip_in_buffers(bytes_reader: &mut BytesReader, count: u64) {\n        for _ in 0..count {\n            bytes_reader.read_i64();\n            bytes_reader.read_i32();\n            bytes_reader.read_f32();\n            bytes_reader.read_f64();\n        }\n    }\n}\n\npub fn sum_rpc_handler(\n    scope_id: TechPawsScopeId,\n    runtime_as_mut: unsafe fn() -> &'static mut TechPawsRuntime,\n    memory: &mut TechPawsRuntimeMemory,\n    async_context: &mut TechPawsRuntimeAsyncContext,\n    rpc_method_address: RpcMethodAddress,\n) -> bool {\n    let args = memory.get_scope_mut(scope_id).rpc_buffer_read(\n        rpc_method_address,\n        TechPawsRuntimeRpcMethodBuffer::Server,\n        |bytes_reader| {\n            let status = bytes_reader.read_u8();\n\n            if status == 0xFF {\n                Some(__sum_rpc_args__::read_from_buffers(bytes_reader))\n            } else {\n                None\n            }\n        },\n    );\n\n    if let Some(args) = &args {\n        memory.get_scope_mut(scope_id).rpc_buffer_write(\n            rpc_method_address,\n            TechPawsRuntimeRpcMethodBuffer::Server,\n            |bytes_writer| {\n                bytes_writer.write_u8(0x00);\n            },\n        );\n\n        let args = args.clone();\n\n        async_context.async_spawner.spawn(async move {\n            let memory = unsafe { &mut runtime_as_mut().memory };\n            let result = sum(\n                args.clone().a,\n                args.clone().b,\n                args.clone().c,\n            ).await;\n\n            memory.get_scope_mut(scope_id).rpc_buffer_write(\n                rpc_method_address,\n                TechPawsRuntimeRpcMethodBuffer::Client,\n                |bytes_writer| {\n                    bytes_writer.write_u8(0xFF);\n                    bytes_writer.write_i64(args.__method_id__);\n                    bytes_writer.write_f64(result);\n                },\n            );\n        });\n    }\n\n    args.is_some()\n}\n"
#guard run src_rpc_read_methods_tpb (fun ast => RustGen.rpc ast)
  "pub fn register_rpc(runtime: &mut TechPawsRuntime, addr: &TechPawsRpcAddress) {\n    let scope_id = TechPawsScopeId(uuid!(\"723ca727-6a66-43a7-bfcc-b8ad94eac9be\"));\n    runtime.memory.add_scope(scope_id);\n    runtime.register_async_rpc_method(\n        addr.read_group_address,\n        scope_id,\n        RpcMethodAddress(0),\n        counter_rpc_handler,\n    );\n    runtime.register_async_rpc_method(\n        addr.read_group_address,\n        scope_id,\n        RpcMethodAddress(1),\n        theme_rpc_handler,\n    );\n    runtime.register_async_rpc_method(\n        addr.read_group_address,\n        scope_id,\n        RpcMethodAddress(2),\n        async_trigger_rpc_handler,\n    );\n    runtime.register_async_rpc_method(\n        addr.read_group_address,\n        scope_id,\n        RpcMethodAddress(3),\n        async_hello_read_rpc_handler,\n    );\n}\n\npub fn counter_rpc_handler(\n    scope_id: TechPawsScopeId,\n    _: unsafe fn() -> &'static mut TechPawsRuntime,\n    memory: &mut TechPawsRuntimeMemory,\n    _: &mut TechPawsRuntimeAsyncContext,\n    rpc_method_address: RpcMethodAddress,\n) -> bool {\n    let result = counter();\n\n    if let Some(result) = &result {\n        memory.get_scope_mut(scope_id).rpc_buffer_write(\n            rpc_method_address,\n            TechPawsRuntimeRpcMethodBuffer::Client,\n            |bytes_writer| {\n                bytes_writer.write_u8(0xFF);\n            },\n        );\n    }\n\n    result.is_some()\n}\n\npub fn theme_rpc_handler(\n    scope_id: TechPawsScopeId,\n    _: unsafe fn() -> &'static mut TechPawsRuntime,\n    memory: &mut TechPawsRuntimeMemory,\n    _: &mut TechPawsRuntimeAsyncContext,\n    rpc_method_address: RpcMethodAddress,\n) -> bool {\n    let result = theme();\n\n    if let Some(result) = &result {\n        memory.get_scope_mut(scope_id).rpc_buffer_write(\n            rpc_method_address,\n            TechPawsRuntimeRpcMethodBuffer::Client,\n            |bytes_writer| {\n                bytes_writer.write_u8(0xFF);\n                result.write_to_buffers(bytes_writer);\n            },\n        );\n    }\n\n    result.is_some()\n}\n\npub fn async_trigger_rpc_handler(\n    scope_id: TechPawsScopeId,\n    runtime_as_mut: unsafe fn() -> &'static mut TechPawsRuntime,\n    memory: &mut TechPawsRuntimeMemory,\n    async_context: &mut TechPawsRuntimeAsyncContext,\n    rpc_method_address: RpcMethodAddress,\n) -> bool {\n    let is_busy = memory.get_scope_mut(scope_id).rpc_buffer_read(\n        rpc_method_address,\n        TechPawsRuntimeRpcMethodBuffer::Server,\n        |bytes_reader| {\n            let status = bytes_reader.read_u8();\n            status == 0xFF\n        },\n    );\n\n    if !is_busy {\n        memory.get_scope_mut(scope_id).rpc_buffer_write(\n            rpc_method_address,\n            TechPawsRuntimeRpcMethodBuffer::Server,\n            |bytes_writer| {\n                bytes_writer.write_u8(0xFF);\n            },\n        );\n\n        async_context.async_spawner.spawn(async move {\n            let result = async_trigger().await;\n\n            if let Some(result) = &result {\n                let memory = unsafe { &mut runtime_as_mut().memory };\n                memory.get_scope_mut(scope_id).rpc_buffer_write(\n                    rpc_method_address,\n                    TechPawsRuntimeRpcMethodBuffer::Client,\n                    |bytes_writer| {\n                        bytes_writer.write_u8(0xFF);\n                    },\n                );\n                memory.get_scope_mut(scope_id).rpc_buffer_write(\n                    rpc_method_address,\n                    TechPawsRuntimeRpcMethodBuffer::Server,\n                    |bytes_writer| {\n                        bytes_writer.write_u8(0x00);\n                    },\n                );\n            }\n        });\n    }\n\n    !is_busy\n}\n\npub fn async_hello_read_rpc_handler(\n    scope_id: TechPawsScopeId,\n    runtime_as_mut: unsafe fn() -> &'static mut TechPawsRuntime,\n    memory: &mut TechPawsRuntimeMemory,\n    async_context: &mut TechPawsRuntimeAsyncContext,\n    rpc_method_address: RpcMethodAddress,\n) -> bool {\n    let is_busy = memory.get_scope_mut(scope_id).rpc_buffer_read(\n        rpc_method_address,\n        TechPawsRuntimeRpcMethodBuffer::Server,\n        |bytes_reader| {\n            let status = bytes_reader.read_u8();\n            status == 0xFF\n        },\n    );\n\n    if !is_busy {\n        memory.get_scope_mut(scope_id).rpc_buffer_write(\n            rpc_method_address,\n            TechPawsRuntimeRpcMethodBuffer::Server,\n            |bytes_writer| {\n                bytes_writer.write_u8(0xFF);\n            },\n        );\n\n        async_context.async_spawner.spawn(async move {\n            let result = async_hello_read().await;\n\n            if let Some(result) = &result {\n                let memory = unsafe { &mut runtime_as_mut().memory };\n                memory.get_scope_mut(scope_id).rpc_buffer_write(\n                    rpc_method_address,\n                    TechPawsRuntimeRpcMethodBuffer::Client,\n                    |bytes_writer| {\n                        bytes_writer.write_u8(0xFF);\n                        result.write_to_buffers(bytes_writer);\n                    },\n                );\n                memory.get_scope_mut(scope_id).rpc_buffer_write(\n                    rpc_method_address,\n                    TechPawsRuntimeRpcMethodBuffer::Server,\n                    |bytes_writer| {\n                        bytes_writer.write_u8(0x00);\n                    },\n                );\n            }\n        });\n    }\n\n    !is_busy\n}\n"
#guard run src_rpc_methods_tpb (fun ast => RustGen.rpc ast)
  "pub fn register_rpc(runtime: &mut TechPawsRuntime, addr: &TechPawsRpcAddress) {\n    let scope_id = TechPawsScopeId(uuid!(\"4de616f8-12c5-4d2c-8d48-9c5fb038991f\"));\n    runtime.memory.add_scope(scope_id);\n    runtime.register_sync_rpc_method(\n        addr.sync_group_address,\n        scope_id,\n        RpcMethodAddress(0),\n        print_hello_world_rpc_handler,\n    );\n    runtime.register_sync_rpc_method(\n        addr.sync_group_address,\n        scope_id,\n        RpcMethodAddress(1),\n        hello_world_rpc_handler,\n    );\n    runtime.register_sync_rpc_method(\n        addr.sync_group_address,\n        scope_id,\n        RpcMethodAddress(2),\n        say_hello_rpc_handler,\n    );\n    runtime.register_sync_rpc_method(\n        addr.sync_group_address,\n        scope_id,\n        RpcMethodAddress(3),\n        sum_rpc_handler,\n    );\n    runtime.register_async_rpc_method(\n        addr.async_group_address,\n        scope_id,\n        RpcMethodAddress(4),\n        print_hello_world_async_rpc_handler,\n    );\n    runtime.register_async_rpc_method(\n        addr.async_group_address,\n        scope_id,\n        RpcMethodAddress(5),\n        hello_world_async_rpc_handler,\n    );\n    runtime.register_async_rpc_method(\n        addr.async_group_address,\n        scope_id,\n        RpcMethodAddress(6),\n        say_hello_async_rpc_handler,\n    );\n    runtime.register_async_rpc_method(\n        addr.async_group_address,\n        scope_id,\n        RpcMethodAddress(7),\n        sum_async_rpc_handler,\n    );\n    runtime.register_async_rpc_method(\n        addr.read_group_address,\n        scope_id,\n        RpcMethodAddress(8),\n        trigger_rpc_handler,\n    );\n    runtime.register_async_rpc_method(\n        addr.read_group_address,\n        scope_id,\n        RpcMethodAddress(9),\n        theme_rpc_handler,\n    );\n    runtime.register_async_rpc_method(\n        addr.read_group_address,\n        scope_id,\n        RpcMethodAddress(10),\n        trigger_async_rpc_handler,\n    );\n    runtime.register_async_rpc_method(\n        addr.read_group_address,\n        scope_id,\n        RpcMethodAddress(11),\n        theme_async_rpc_handler,\n    );\n}\n\n#[derive(Debug, Clone, PartialEq)]\npub struct __print_hello_world_rpc_args__;\n\nimpl IntoVMBuffers for __print_hello_world_rpc_args__ {\n    fn read_from_buffers(_: &mut BytesReader) -> Self {\n        __print_hello_world_rpc_args__\n    }\n\n    fn write_to_buffers(&self, _: &mut BytesWriter) {}\n\n    fn skip_in_buffers(_: &mut BytesReader, _: u64) {}\n}\n\npub fn print_hello_world_rpc_handler(\n    scope_id: TechPawsScopeId,\n    memory: &mut TechPawsRuntimeMemory,\n    rpc_method_address: RpcMethodAddress,\n) -> bool {\n    let args = memory.get_scope_mut(scope_id).rpc_buffer_read(\n        rpc_method_address,\n        TechPawsRuntimeRpcMethodBuffer::Server,\n        |bytes_reader| {\n            let status = bytes_reader.read_u8();\n\n            if status == 0xFF {\n                Some(__print_hello_world_rpc_args__::read_from_buffers(bytes_reader))\n            } else {\n                None\n            }\n        },\n    );\n\n    if let Some(args) = &args {\n        memory.get_scope_mut(scope_id).rpc_buffer_write(\n            rpc_method_address,\n            TechPawsRuntimeRpcMethodBuffer::Server,\n            |bytes_writer| {\n                bytes_writer.write_u8(0x00);\n            },\n        );\n\n        print_hello_world();\n\n        memory.get_scope_mut(scope_id).rpc_buffer_write(\n            rpc_method_address,\n            TechPawsRuntimeRpcMethodBuffer::Client,\n            |bytes_writer| {\n                bytes_writer.write_u8(0xFF);\n            },\n        );\n    }\n\n    args.is_some()\n}\n\n#[derive(Debug, Clone, PartialEq)]\npub struct __hello_world_rpc_args__;\n\nimpl IntoVMBuffers for __hello_world_rpc_args__ {\n    fn read_from_buffers(_: &mut BytesReader) -> Self {\n        __hello_world_rpc_args__\n    }\n\n    fn write_to_buffers(&self, _: &mut BytesWriter) {}\n\n    fn skip_in_buffers(_: &mut BytesReader, _: u64) {}\n}\n\npub fn hello_world_rpc_handler(\n    scope_id: TechPawsScopeId,\n    memory: &mut TechPawsRuntimeMemory,\n    rpc_method_address: RpcMethodAddress,\n) -> bool {\n    let args = memory.get_scope_mut(scope_id).rpc_buffer_read(\n        rpc_method_address,\n        TechPawsRuntimeRpcMethodBuffer::Server,\n        |bytes_reader| {\n            let status = bytes_reader.read_u8();\n\n            if status == 0xFF {\n                Some(__hello_world_rpc_args__::read_from_buffers(bytes_reader))\n            } else {\n                None\n            }\n        },\n    );\n\n    if let Some(args) = &args {\n        memory.get_scope_mut(scope_id).rpc_buffer_write(\n            rpc_method_address,\n            TechPawsRuntimeRpcMethodBuffer::Server,\n            |bytes_writer| {\n                bytes_writer.write_u8(0x00);\n            },\n        );\n\n        let result = hello_world();\n\n        memory.get_scope_mut(scope_id).rpc_buffer_write(\n            rpc_method_address,\n            TechPawsRuntimeRpcMethodBuffer::Client,\n            |bytes_writer| {\n                bytes_writer.write_u8(0xFF);\n                result.write_to_buffers(bytes_writer);\n            },\n        );\n    }\n\n    args.is_some()\n}\n\n#[derive(Debug, Clone, PartialEq)]\npub struct __say_hello_rpc_args__ {\n    pub name: String,\n}\n\nimpl IntoVMBuffers for __say_hello_rpc_args__ {\n    fn read_from_buffers(bytes_reader: &mut BytesReader) -> Self {\n        Self {\n            name: String::read_from_buffers(bytes_reader),\n        }\n    }\n\n    fn write_to_buffers(&self, bytes_writer: &mut BytesWriter) {\n        self.name.write_to_buffers(bytes_writer);\n    }\n\n    fn skip_in_buffers(bytes_reader: &mut BytesReader, count: u64) {\n        for _ in 0..count {\n            String::read_from_buffers(bytes_reader);\n        }\n    }\n}\n\npub fn say_hello_rpc_handler(\n    scope_id: TechPawsScopeId,\n    memory: &mut TechPawsRuntimeMemory,\n    rpc_method_address: RpcMethodAddress,\n) -> bool {\n    let args = memory.get_scope_mut(scope_id).rpc_buffer_read(\n        rpc_method_address,\n        TechPawsRuntimeRpcMethodBuffer::Server,\n        |bytes_reader| {\n            let status = bytes_reader.read_u8();\n\n            if status == 0xFF {\n                Some(__say_hello_rpc_args__::read_from_buffers(bytes_reader))\n            } else {\n                None\n            }\n        },\n    );\n\n    if let Some(args) = &args {\n        memory.get_scope_mut(scope_id).rpc_buffer_write(\n            rpc_method_address,\n            TechPawsRuntimeRpcMethodBuffer::Server,\n            |bytes_writer| {\n                bytes_writer.write_u8(0x00);\n            },\n        );\n\n        let result = say_hello(\n            args.clone().name,\n        );\n\n        memory.get_scope_mut(scope_id).rpc_buffer_write(\n            rpc_method_address,\n            TechPawsRuntimeRpcMethodBuffer::Client,\n            |bytes_writer| {\n                bytes_writer.write_u8(0xFF);\n                result.write_to_buffers(bytes_writer);\n            },\n        );\n    }\n\n    args.is_some()\n}\n\n#[derive(Debug, Clone, PartialEq)]\npub struct __sum_rpc_args__ {\n    pub a: i32,\n    pub b: f32,\n    pub c: f64,\n}\n\nimpl IntoVMBuffers for __sum_rpc_args__ {\n    fn read_from_buffers(bytes_reader: &mut BytesReader) -> Self {\n        Self {\n            a: bytes_reader.read_i32(),\n            b: bytes_reader.read_f32(),\n            c: bytes_reader.read_f64(),\n        }\n    }\n\n    fn write_to_buffers(&self, bytes_writer: &mut BytesWriter) {\n        bytes_writer.write_i32(self.a);\n        bytes_writer.write_f32(self.b);\n        bytes_writer.write_f64(self.c);\n    }\n\n    fn skip_in_buffers(bytes_reader: &mut BytesReader, count: u64) {\n        for _ in 0..count {\n            bytes_reader.read_i32();\n            bytes_reader.read_f32();\n            bytes_reader.read_f64();\n        }\n    }\n}\n\npub fn sum_rpc_handler(\n    scope_id: TechPawsScopeId,\n    memory: &mut TechPawsRuntimeMemory,\n    rpc_method_address: RpcMethodAddress,\n) -> bool {\n    let args = memory.get_scope_mut(scope_id).rpc_buffer_read(\n        rpc_method_address,\n        TechPawsRuntimeRpcMethodBuffer::Server,\n        |bytes_reader| {\n            let status = bytes_reader.read_u8();\n\n            if status == 0xFF {\n                Some(__sum_rpc_args__::read_from_buffers(bytes_reader))\n            } else {\n                None\n            }\n        },\n    );\n\n    if let Some(args) = &args {\n        memory.get_scope_mut(scope_id).rpc_buffer_write(\n            rpc_method_address,\n            TechPawsRuntimeRpcMethodBuffer::Server,\n            |bytes_writer| {\n                bytes_writer.write_u8(0x00);\n            },\n        );\n\n        sum(\n            args.clone().a,\n            args.clone().b,\n            args.clone().c,\n        );\n\n        memory.get_scope_mut(scope_id).rpc_buffer_write(\n            rpc_method_address,\n            TechPawsRuntimeRpcMethodBuffer::Client,\n            |bytes_writer| {\n                bytes_writer.write_u8(0xFF);\n            },\n        );\n    }\n\n    args.is_some()\n}\n\n#[derive(Debug, Clone, PartialEq)]\npub struct __print_hello_world_async_rpc_args__ {\n    pub __method_id__: i64,\n}\n\nimpl IntoVMBuffers for __print_hello_world_async_rpc_args__ {\n    fn read_from_buffers(bytes_reader: &mut BytesReader) -> Self {\n        Self {\n            __method_id__: bytes_reader.read_i64(),\n        }\n    }\n\n    fn write_to_buffers(&self, bytes_writer: &mut BytesWriter) {\n        bytes_writer.write_i64(self.__method_id__);\n    }\n\n    fn skip_in_buffers(bytes_reader: &mut BytesReader, count: u64) {\n        for _ in 0..count {\n            bytes_reader.read_i64();\n        }\n    }\n}\n\npub fn print_hello_world_async_rpc_handler(\n    scope_id: TechPawsScopeId,\n    runtime_as_mut: unsafe fn() -> &'static mut TechPawsRuntime,\n    memory: &mut TechPawsRuntimeMemory,\n    async_context: &mut TechPawsRuntimeAsyncContext,\n    rpc_method_address: RpcMethodAddress,\n) -> bool {\n    let args = memory.get_scope_mut(scope_id).rpc_buffer_read(\n        rpc_method_address,\n        TechPawsRuntimeRpcMethodBuffer::Server,\n        |bytes_reader| {\n            let status = bytes_reader.read_u8();\n\n            if status == 0xFF {\n                Some(__print_hello_world_async_rpc_args__::read_from_buffers(bytes_reader))\n            } else {\n                None\n            }\n        },\n    );\n\n    if let Some(args) = &args {\n        memory.get_scope_mut(scope_id).rpc_buffer_write(\n            rpc_method_address,\n            TechPawsRuntimeRpcMethodBuffer::Server,\n            |bytes_writer| {\n                bytes_writer.write_u8(0x00);\n            },\n        );\n\n        let args = args.clone();\n\n        async_context.async_spawner.spawn(async move {\n            let memory = unsafe { &mut runtime_as_mut().memory };\n            print_hello_world_async().await;\n\n            memory.get_scope_mut(scope_id).rpc_buffer_write(\n                rpc_method_address,\n                TechPawsRuntimeRpcMethodBuffer::Client,\n                |bytes_writer| {\n                    bytes_writer.write_u8(0xFF);\n                    bytes_writer.write_i64(args.__method_id__);\n                },\n            );\n        });\n    }\n\n    args.is_some()\n}\n\n#[derive(Debug, Clone, PartialEq)]\npub struct __hello_world_async_rpc_args__ {\n    pub __method_id__: i64,\n}\n\nimpl IntoVMBuffers for __hello_world_async_rpc_args__ {\n    fn read_from_buffers(bytes_reader: &mut BytesReader) -> Self {\n        Self {\n            __method_id__: bytes_reader.read_i64(),\n        }\n    }\n\n    fn write_to_buffers(&self, bytes_writer: &mut BytesWriter) {\n        bytes_writer.write_i64(self.__method_id__);\n    }\n\n    fn skip_in_buffers(bytes_reader: &mut BytesReader, count: u64) {\n        for _ in 0..count {\n            bytes_reader.read_i64();\n        }\n    }\n}\n\npub fn hello_world_async_rpc_handler(\n    scope_id: TechPawsScopeId,\n    runtime_as_mut: unsafe fn() -> &'static mut TechPawsRuntime,\n    memory: &mut TechPawsRuntimeMemory,\n    async_context: &mut TechPawsRuntimeAsyncContext,\n    rpc_method_address: RpcMethodAddress,\n) -> bool {\n    let args = memory.get_scope_mut(scope_id).rpc_buffer_read(\n        rpc_method_address,\n        TechPawsRuntimeRpcMethodBuffer::Server,\n        |bytes_reader| {\n            let status = bytes_reader.read_u8();\n\n            if status == 0xFF {\n                Some(__hello_world_async_rpc_args__::read_from_buffers(bytes_reader))\n            } else {\n                None\n            }\n        },\n    );\n\n    if let Some(args) = &args {\n        memory.get_scope_mut(scope_id).rpc_buffer_write(\n            rpc_method_address,\n            TechPawsRuntimeRpcMethodBuffer::Server,\n            |bytes_writer| {\n                bytes_writer.write_u8(0x00);\n            },\n        );\n\n        let args = args.clone();\n\n        async_context.async_spawner.spawn(async move {\n            let memory = unsafe { &mut runtime_as_mut().memory };\n            let result = hello_world_async().await;\n\n            memory.get_scope_mut(scope_id).rpc_buffer_write(\n                rpc_method_address,\n                TechPawsRuntimeRpcMethodBuffer::Client,\n                |bytes_writer| {\n                    bytes_writer.write_u8(0xFF);\n                    bytes_writer.write_i64(args.__method_id__);\n                    result.write_to_buffers(bytes_writer);\n                },\n            );\n        });\n    }\n\n    args.is_some()\n}\n\n#[derive(Debug, Clone, PartialEq)]\npub struct __say_hello_async_rpc_args__ {\n    pub __method_id__: i64,\n    pub name: String,\n}\n\nimpl IntoVMBuffers for __say_hello_async_rpc_args__ {\n    fn read_from_buffers(bytes_reader: &mut BytesReader) -> Self {\n        Self {\n            __method_id__: bytes_reader.read_i64(),\n            name: String::read_from_buffers(bytes_reader),\n        }\n    }\n\n    fn write_to_buffers(&self, bytes_writer: &mut BytesWriter) {\n        bytes_writer.write_i64(self.__method_id__);\n        self.name.write_to_buffers(bytes_writer);\n    }\n\n    fn skip_in_buffers(bytes_reader: &mut BytesReader, count: u64) {\n        for _ in 0..count {\n            bytes_reader.read_i64();\n            String::read_from_buffers(bytes_reader);\n        }\n    }\n}\n\npub fn say_hello_async_rpc_handler(\n    scope_id: TechPawsScopeId,\n    runtime_as_mut: unsafe fn() -> &'static mut TechPawsRuntime,\n    memory: &mut TechPawsRuntimeMemory,\n    async_context: &mut TechPawsRuntimeAsyncContext,\n    rpc_method_address: RpcMethodAddress,\n) -> bool {\n    let args = memory.get_scope_mut(scope_id).rpc_buffer_read(\n        rpc_method_address,\n        TechPawsRuntimeRpcMethodBuffer::Server,\n        |bytes_reader| {\n            let status = bytes_reader.read_u8();\n\n            if status == 0xFF {\n                Some(__say_hello_async_rpc_args__::read_from_buffers(bytes_reader))\n            } else {\n                None\n            }\n        },\n    );\n\n    if let Some(args) = &args {\n        memory.get_scope_mut(scope_id).rpc_buffer_write(\n            rpc_method_address,\n            TechPawsRuntimeRpcMethodBuffer::Server,\n            |bytes_writer| {\n                bytes_writer.write_u8(0x00);\n            },\n        );\n\n        let args = args.clone();\n\n        async_context.async_spawner.spawn(async move {\n            let memory = unsafe { &mut runtime_as_mut().memory };\n            let result = say_hello_async(\n                args.clone().name,\n            ).await;\n\n            memory.get_scope_mut(scope_id).rpc_buffer_write(\n                rpc_method_address,\n                TechPawsRuntimeRpcMethodBuffer::Client,\n                |bytes_writer| {\n                    bytes_writer.write_u8(0xFF);\n                    bytes_writer.write_i64(args.__method_id__);\n                    result.write_to_buffers(bytes_writer);\n                },\n            );\n        });\n    }\n\n    args.is_some()\n}\n\n#[derive(Debug, Clone, PartialEq)]\npub struct __sum_async_rpc_args__ {\n    pub __method_id__: i64,\n    pub a: i32,\n    pub b: f32,\n    pub c: f64,\n}\n\nimpl IntoVMBuffers for __sum_async_rpc_args__ {\n    fn read_from_buffers(bytes_reader: &mut BytesReader) -> Self {\n        Self {\n            __method_id__: bytes_reader.read_i64(),\n            a: bytes_reader.read_i32(),\n            b: bytes_reader.read_f32(),\n            c: bytes_reader.read_f64(),\n        }\n    }\n\n    fn write_to_buffers(&self, bytes_writer: &mut BytesWriter) {\n        bytes_writer.write_i64(self.__method_id__);\n        bytes_writer.write_i32(self.a);\n        bytes_writer.write_f32(self.b);\n        bytes_writer.write_f64(self.c);\n    }\n\n    fn skip_in_buffers(bytes_reader: &mut BytesReader, count: u64) {\n        for _ in 0..count {\n            bytes_reader.read_i64();\n            bytes_reader.read_i32();\n            bytes_reader.read_f32();\n            bytes_reader.read_f64();\n        }\n    }\n}\n\npub fn sum_async_rpc_handler(\n    scope_id: TechPawsScopeId,\n    runtime_as_mut: unsafe fn() -> &'static mut TechPawsRuntime,\n    memory: &mut TechPawsRuntimeMemory,\n    async_context: &mut TechPawsRuntimeAsyncContext,\n    rpc_method_address: RpcMethodAddress,\n) -> bool {\n    let args = memory.get_scope_mut(scope_id).rpc_buffer_read(\n        rpc_method_address,\n        TechPawsRuntimeRpcMethodBuffer::Server,\n        |bytes_reader| {\n            let status = bytes_reader.read_u8();\n\n            if status == 0xFF {\n                Some(__sum_async_rpc_args__::read_from_buffers(bytes_reader))\n            } else {\n                None\n            }\n        },\n    );\n\n    if let Some(args) = &args {\n        memory.get_scope_mut(scope_id).rpc_buffer_write(\n            rpc_method_address,\n            TechPawsRuntimeRpcMethodBuffer::Server,\n            |bytes_writer| {\n                bytes_writer.write_u8(0x00);\n            },\n        );\n\n        let args = args.clone();\n\n        async_context.async_spawner.spawn(async move {\n            let memory = unsafe { &mut runtime_as_mut().memory };\n            let result = sum_async(\n                args.clone().a,\n                args.clone().b,\n                args.clone().c,\n            ).await;\n\n            memory.get_scope_mut(scope_id).rpc_buffer_write(\n                rpc_method_address,\n                TechPawsRuntimeRpcMethodBuffer::Client,\n                |bytes_writer| {\n                    bytes_writer.write_u8(0xFF);\n                    bytes_writer.write_i64(args.__method_id__);\n                    bytes_writer.write_f64(result);\n                },\n            );\n        });\n    }\n\n    args.is_some()\n}\n\npub fn trigger_rpc_handler(\n    scope_id: TechPawsScopeId,\n    _: unsafe fn() -> &'static mut TechPawsRuntime,\n    memory: &mut TechPawsRuntimeMemory,\n    _: &mut TechPawsRuntimeAsyncContext,\n    rpc_method_address: RpcMethodAddress,\n) -> bool {\n    let result = trigger();\n\n    if let Some(result) = &result {\n        memory.get_scope_mut(scope_id).rpc_buffer_write(\n            rpc_method_address,\n            TechPawsRuntimeRpcMethodBuffer::Client,\n            |bytes_writer| {\n                bytes_writer.write_u8(0xFF);\n            },\n        );\n    }\n\n    result.is_some()\n}\n\npub fn theme_rpc_handler(\n    scope_id: TechPawsScopeId,\n    _: unsafe fn() -> &'static mut TechPawsRuntime,\n    memory: &mut TechPawsRuntimeMemory,\n    _: &mut TechPawsRuntimeAsyncContext,\n    rpc_method_address: RpcMethodAddress,\n) -> bool {\n    let result = theme();\n\n    if let Some(result) = &result {\n        memory.get_scope_mut(scope_id).rpc_buffer_write(\n            rpc_method_address,\n            TechPawsRuntimeRpcMethodBuffer::Client,\n            |bytes_writer| {\n                bytes_writer.write_u8(0xFF);\n                result.write_to_buffers(bytes_writer);\n            },\n        );\n    }\n\n    result.is_some()\n}\n\npub fn trigger_async_rpc_handler(\n    scope_id: TechPawsScopeId,\n    runtime_as_mut: unsafe fn() -> &'static mut TechPawsRuntime,\n    memory: &mut TechPawsRuntimeMemory,\n    async_context: &mut TechPawsRuntimeAsyncContext,\n    rpc_method_address: RpcMethodAddress,\n) -> bool {\n    let is_busy = memory.get_scope_mut(scope_id).rpc_buffer_read(\n        rpc_method_address,\n        TechPawsRuntimeRpcMethodBuffer::Server,\n        |bytes_reader| {\n            let status = bytes_reader.read_u8();\n            status == 0xFF\n        },\n    );\n\n    if !is_busy {\n        memory.get_scope_mut(scope_id).rpc_buffer_write(\n            rpc_method_address,\n            TechPawsRuntimeRpcMethodBuffer::Server,\n            |bytes_writer| {\n                bytes_writer.write_u8(0xFF);\n            },\n        );\n\n        async_context.async_spawner.spawn(async move {\n            let result = trigger_async().await;\n\n            if let Some(result) = &result {\n                let memory = unsafe { &mut runtime_as_mut().memory };\n                memory.get_scope_mut(scope_id).rpc_buffer_write(\n                    rpc_method_address,\n                    TechPawsRuntimeRpcMethodBuffer::Client,\n                    |bytes_writer| {\n                        bytes_writer.write_u8(0xFF);\n                    },\n                );\n                memory.get_scope_mut(scope_id).rpc_buffer_write(\n                    rpc_method_address,\n                    TechPawsRuntimeRpcMethodBuffer::Server,\n                    |bytes_writer| {\n                        bytes_writer.write_u8(0x00);\n                    },\n                );\n            }\n        });\n    }\n\n    !is_busy\n}\n\npub fn theme_async_rpc_handler(\n    scope_id: TechPawsScopeId,\n    runtime_as_mut: unsafe fn() -> &'static mut TechPawsRuntime,\n    memory: &mut TechPawsRuntimeMemory,\n    async_context: &mut TechPawsRuntimeAsyncContext,\n    rpc_method_address: RpcMethodAddress,\n) -> bool {\n    let is_busy = memory.get_scope_mut(scope_id).rpc_buffer_read(\n        rpc_method_address,\n        TechPawsRuntimeRpcMethodBuffer::Server,\n        |bytes_reader| {\n            let status = bytes_reader.read_u8();\n            status == 0xFF\n        },\n    );\n\n    if !is_busy {\n        memory.get_scope_mut(scope_id).rpc_buffer_write(\n            rpc_method_address,\n            TechPawsRuntimeRpcMethodBuffer::Server,\n            |bytes_writer| {\n                bytes_writer.write_u8(0xFF);\n            },\n        );\n\n        async_context.async_spawner.spawn(async move {\n            let result = theme_async().await;\n\n            if let Some(result) = &result {\n                let memory = unsafe { &mut runtime_as_mut().memory };\n                memory.get_scope_mut(scope_id).rpc_buffer_write(\n                    rpc_method_address,\n                    TechPawsRuntimeRpcMethodBuffer::Client,\n                    |bytes_writer| {\n                        bytes_writer.write_u8(0xFF);\n                        result.write_to_buffers(bytes_writer);\n                    },\n                );\n                memory.get_scope_mut(scope_id).rpc_buffer_write(\n                    rpc_method_address,\n                    TechPawsRuntimeRpcMethodBuffer::Server,\n                    |bytes_writer| {\n                        bytes_writer.write_u8(0x00);\n                    },\n                );\n            }\n        });\n    }\n\n    !is_busy\n}\n"
#guard run src_consts_tpb (fun ast => .ok (RustGen.consts testExt ast))
  "pub mod commands {\n    pub const DRAW_LINES: u64 = 131073;\n    pub const DRAW_PATH: u64 = 131074;\n    pub const DRAW_QUADS: u64 = 131075;\n    pub const DRAW_CENTERED_QUADS: u64 = 131076;\n    pub const DRAW_TEXTS: u64 = 131077;\n    pub const SET_COLOR_PIPELINE: u64 = 131078;\n    pub const SET_TEXTURE_PIPELINE: u64 = 131079;\n    pub const DRAW_CIRCLES: u64 = 131080;\n    pub const DRAW_HOLLOW_CIRCLES: u64 = 131081;\n}\n\npub mod addr {\n    pub const SOME_VALUE: String = \"Hello World!\";\n\n    pub mod groups {\n        pub const MAIN: tech_paws_runtime::GroupAddress = tech_paws_runtime::GroupAddress(0);\n        pub const MAIN_RENDER: tech_paws_runtime::GroupAddress = tech_paws_runtime::GroupAddress(1);\n        pub const RPC: tech_paws_runtime::GroupAddress = tech_paws_runtime::GroupAddress(2);\n        pub const RPC_SYNC: tech_paws_runtime::GroupAddress = tech_paws_runtime::GroupAddress(3);\n        pub const RPC_READ: tech_paws_runtime::GroupAddress = tech_paws_runtime::GroupAddress(4);\n    }\n\n    pub const DELTA_TIME: f64 = 16.6;\n    pub const FLAG: bool = true;\n\n    pub mod commands_buffers {\n        pub const WIN1_MAIN_RENDER: tech_paws_runtime::CommandsBufferAddress = tech_paws_runtime::CommandsBufferAddress(0);\n    }\n}\n"

end TPB.Tests
