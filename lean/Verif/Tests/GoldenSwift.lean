/- Generated by tools/golden.py: the model reproduces the golden files of /repo/test_resources. -/
import Verif.Model.Parser
import Verif.Model.SwiftGen
import Verif.Model.ToCase
namespace TPB.Tests

private def src_consts_tpb : String := "const commands {\n    DRAW_LINES: u64 = 0x0002_0001;\n    DRAW_PATH: u64 = 0x0002_0002;\n    DRAW_QUADS: u64 = 0x0002_0003;\n    DRAW_CENTERED_QUADS: u64 = 0x0002_0004;\n    DRAW_TEXTS: u64 = 0x0002_0005;\n    SET_COLOR_PIPELINE: u64 = 0x0002_0006;\n    SET_TEXTURE_PIPELINE: u64 = 0x0002_0007;\n    DRAW_CIRCLES: u64 = 0x0002_0008;\n    DRAW_HOLLOW_CIRCLES: u64 = 0x0002_0009;\n}\n\nconst addr {\n    SOME_VALUE: String = \"Hello World!\";\n\n    const groups {\n        MAIN: GroupAddress = 0;\n        MAIN_RENDER: GroupAddress = 1;\n        RPC: GroupAddress = 2;\n        RPC_SYNC: GroupAddress = 3;\n        RPC_READ: GroupAddress = 4;\n    }\n\n    DELTA_TIME: f64 = 16.6;\n    FLAG: bool = true;\n\n    const commands_buffers {\n        WIN1_MAIN_RENDER: CommandsBufferAddress = 0;\n    }\n}\n"
private def src_struct_empty_tpb : String := "struct Empty;\n"
private def src_struct_basic_tpb : String := "struct ViewData {\n    delta_time: f32,\n    view_width: f32,\n    view_height: f32,\n    touch_start_x: f32,\n    touch_start_y: f32,\n    last_touch_x: f32,\n    last_touch_y: f32,\n    touch_x: f32,\n    touch_y: f32,\n}\n"
private def src_struct_with_positions_tpb : String := "struct Test {\n    #[1] touch_x: f32,\n    #[2] touch_y: f32,\n    #[3] touch_status: TouchStatus,\n}\n"
private def src_struct_generics_tpb : String := "struct GenericType {\n    items: Vec<Test>,\n    table: LinearTable<f32, Test>,\n}\n"
private def src_struct_tpb : String := "struct Empty;\n\nstruct ViewData {\n    delta_time: f32,\n    view_width: f32,\n    view_height: f32,\n    touch_start_x: f32,\n    touch_start_y: f32,\n    last_touch_x: f32,\n    last_touch_y: f32,\n    touch_x: f32,\n    touch_y: f32,\n}\n\nstruct Test {\n    #[1] touch_x: f32,\n    #[2] touch_y: f32,\n    #[3] touch_status: TouchStatus,\n}\n\nstruct GenericType {\n    items: Vec<Test>,\n    table: LinearTable<f32, Test>,\n}\n"
private def src_enum_extended_tpb : String := "enum MyEnum {\n    #[1] Idle,\n    #[2] Move {\n        #[1] x: f64,\n        #[2] y: f64,\n    },\n    #[3] Update(#[1] f64, #[2] f64, #[4] String),\n}\n\nenum MyEnumWithoutPositions {\n    Option1(u64),\n    Option2 { name: String },\n    Option3,\n    Option4,\n}\n\nenum MyEnumWithManyArguments {\n    Option1(u64, u64, u64),\n    Option2 { name: String },\n    Option3,\n    Option4,\n}\n\nenum MyEnumWithNamedArguments {\n    Option1 {\n        name: String,\n        value: f32,\n        bytes: Vec<u8>\n    },\n    Option2(u64, u64, u64),\n    Option3,\n    Option4,\n}\n"

private def run (src : String) (f : List ASTNode → Except Panic String) (expected : String) : Bool :=
  match parseSource src with
  | .error _ => false
  | .ok ast => match f ast with
    | .ok s => s == expected
    | .error _ => false

#guard run src_consts_tpb (fun ast => SwiftGen.consts testExtF ast)
  "struct Commands {\n    static let drawLines: UInt64 = 131073\n    static let drawPath: UInt64 = 131074\n    static let drawQuads: UInt64 = 131075\n    static let drawCenteredQuads: UInt64 = 131076\n    static let drawTexts: UInt64 = 131077\n    static let setColorPipeline: UInt64 = 131078\n    static let setTexturePipeline: UInt64 = 131079\n    static let drawCircles: UInt64 = 131080\n    static let drawHollowCircles: UInt64 = 131081\n}\n\nstruct Addr {\n    static let someValue: String = \"Hello World!\"\n\n    struct Groups {\n        static let main: UInt64 = 0\n        static let mainRender: UInt64 = 1\n        static let rpc: UInt64 = 2\n        static let rpcSync: UInt64 = 3\n        static let rpcRead: UInt64 = 4\n    }\n\n    static let deltaTime: Double = 16.6\n    static let flag: Bool = true\n\n    struct CommandsBuffers {\n        static let win1MainRender: UInt64 = 0\n    }\n}\n"
#guard run src_struct_empty_tpb (fun ast => SwiftGen.models testExtF ast)
  "struct Empty {\n    static func createDefault() -> Empty {\n        return Empty()\n    }\n}\n"
#guard run src_struct_basic_tpb (fun ast => SwiftGen.models testExtF ast)
  "struct ViewData {\n    var deltaTime: Float\n    var viewWidth: Float\n    var viewHeight: Float\n    var touchStartX: Float\n    var touchStartY: Float\n    var lastTouchX: Float\n    var lastTouchY: Float\n    var touchX: Float\n    var touchY: Float\n\n    static func createDefault() -> ViewData {\n        return ViewData(\n            deltaTime: 0,\n            viewWidth: 0,\n            viewHeight: 0,\n            touchStartX: 0,\n            touchStartY: 0,\n            lastTouchX: 0,\n            lastTouchY: 0,\n            touchX: 0,\n            touchY: 0\n        )\n    }\n}\n"
#guard run src_struct_with_positions_tpb (fun ast => SwiftGen.models testExtF ast)
  "struct Test {\n    var touchX: Float\n    var touchY: Float\n    var touchStatus: TouchStatus\n\n    static func createDefault() -> Test {\n        return Test(\n            touchX: 0,\n            touchY: 0,\n            touchStatus: TouchStatus.createDefault()\n        )\n    }\n}\n"
#guard run src_struct_generics_tpb (fun ast => SwiftGen.models testExtF ast)
  "struct GenericType {\n    var items: [Test]\n    var table: LinearTable<Float, Test>\n\n    static func createDefault() -> GenericType {\n        return GenericType(\n            items: [],\n            table: LinearTable<Float, Test>.createDefault()\n        )\n    }\n}\n"
#guard run src_struct_tpb (fun ast => SwiftGen.models testExtF ast)
  "struct Empty {\n    static func createDefault() -> Empty {\n        return Empty()\n    }\n}\n\nstruct ViewData {\n    var deltaTime: Float\n    var viewWidth: Float\n    var viewHeight: Float\n    var touchStartX: Float\n    var touchStartY: Float\n    var lastTouchX: Float\n    var lastTouchY: Float\n    var touchX: Float\n    var touchY: Float\n\n    static func createDefault() -> ViewData {\n        return ViewData(\n            deltaTime: 0,\n            viewWidth: 0,\n            viewHeight: 0,\n            touchStartX: 0,\n            touchStartY: 0,\n            lastTouchX: 0,\n            lastTouchY: 0,\n            touchX: 0,\n            touchY: 0\n        )\n    }\n}\n\nstruct Test {\n    var touchX: Float\n    var touchY: Float\n    var touchStatus: TouchStatus\n\n    static func createDefault() -> Test {\n        return Test(\n            touchX: 0,\n            touchY: 0,\n            touchStatus: TouchStatus.createDefault()\n        )\n    }\n}\n\nstruct GenericType {\n    var items: [Test]\n    var table: LinearTable<Float, Test>\n\n    static func createDefault() -> GenericType {\n        return GenericType(\n            items: [],\n            table: LinearTable<Float, Test>.createDefault()\n        )\n    }\n}\n"
#guard run src_enum_extended_tpb (fun ast => SwiftGen.models testExtF ast)
  "enum MyEnum {\n    case idle\n    case move(\n        /* x */ Double,\n        /* y */ Double\n    )\n    case update(\n        Double,\n        Double,\n        String\n    )\n\n    static func createDefault() -> MyEnum {\n        return .idle\n    }\n}\n\nenum MyEnumWithoutPositions {\n    case option1(\n        UInt64\n    )\n    case option2(\n        /* name */ String\n    )\n    case option3\n    case option4\n\n    static func createDefault() -> MyEnumWithoutPositions {\n        return .option1(\n            0\n        )\n    }\n}\n\nenum MyEnumWithManyArguments {\n    case option1(\n        UInt64,\n        UInt64,\n        UInt64\n    )\n    case option2(\n        /* name */ String\n    )\n    case option3\n    case option4\n\n    static func createDefault() -> MyEnumWithManyArguments {\n        return .option1(\n            0,\n            0,\n            0\n        )\n    }\n}\n\nenum MyEnumWithNamedArguments {\n    case option1(\n        /* name */ String,\n        /* value */ Float,\n        /* bytes */ [UInt8]\n    )\n    case option2(\n        UInt64,\n        UInt64,\n        UInt64\n    )\n    case option3\n    case option4\n\n    static func createDefault() -> MyEnumWithNamedArguments {\n        return .option1(\n            /* name */ \"\",\n            /* value */ 0,\n            /* bytes */ []\n        )\n    }\n}\n"

end TPB.Tests
