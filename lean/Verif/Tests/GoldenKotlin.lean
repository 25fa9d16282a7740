/- Generated by tools/golden.py: the model reproduces the golden files of /repo/test_resources. -/
import Verif.Model.Parser
import Verif.Model.KotlinGen
import Verif.Model.ToCase
namespace TPB.Tests

private def src_consts_tpb : String := "const commands {\n    DRAW_LINES: u64 = 0x0002_0001;\n    DRAW_PATH: u64 = 0x0002_0002;\n    DRAW_QUADS: u64 = 0x0002_0003;\n    DRAW_CENTERED_QUADS: u64 = 0x0002_0004;\n    DRAW_TEXTS: u64 = 0x0002_0005;\n    SET_COLOR_PIPELINE: u64 = 0x0002_0006;\n    SET_TEXTURE_PIPELINE: u64 = 0x0002_0007;\n    DRAW_CIRCLES: u64 = 0x0002_0008;\n    DRAW_HOLLOW_CIRCLES: u64 = 0x0002_0009;\n}\n\nconst addr {\n    SOME_VALUE: String = \"Hello World!\";\n\n    const groups {\n        MAIN: GroupAddress = 0;\n        MAIN_RENDER: GroupAddress = 1;\n        RPC: GroupAddress = 2;\n        RPC_SYNC: GroupAddress = 3;\n        RPC_READ: GroupAddress = 4;\n    }\n\n    DELTA_TIME: f64 = 16.6;\n    FLAG: bool = true;\n\n    const commands_buffers {\n        WIN1_MAIN_RENDER: CommandsBufferAddress = 0;\n    }\n}\n"
private def src_struct_empty_tpb : String := "struct Empty;\n"
private def src_struct_basic_tpb : String := "struct ViewData {\n    delta_time: f32,\n    view_width: f32,\n    view_height: f32,\n    touch_start_x: f32,\n    touch_start_y: f32,\n    last_touch_x: f32,\n    last_touch_y: f32,\n    touch_x: f32,\n    touch_y: f32,\n}\n"
private def src_struct_with_positions_tpb : String := "struct Test {\n    #[1] touch_x: f32,\n    #[2] touch_y: f32,\n    #[3] touch_status: TouchStatus,\n}\n"
private def src_struct_generics_tpb : String := "struct GenericType {\n    items: Vec<Test>,\n    table: LinearTable<f32, Test>,\n}\n"
private def src_enum_basic_tpb : String := "enum MyEnumWithoutPositions {\n    Option1(u64),\n    Option2 { name: String },\n    Option3,\n    Option4,\n}\n"
private def src_enum_with_positions_tpb : String := "enum MyEnum {\n    #[1] Idle,\n    #[2] Move {\n        #[1] x: f64,\n        #[2] y: f64,\n    },\n    #[3] Update(#[1] f64, #[2] f64, #[4] String),\n}\n"
private def src_enum_with_many_default_arguments_tpb : String := "enum MyEnumWithManyArguments {\n    Option1(u64, u64, u64),\n    Option2 { name: String },\n    Option3,\n    Option4,\n}\n"
private def src_enum_with_named_default_arguments_tpb : String := "enum MyEnumWithNamedArguments {\n    Option1 {\n        name: String,\n        value: f32,\n        bytes: Vec<u8>\n    },\n    Option2(u64, u64, u64),\n    Option3,\n    Option4,\n}\n"
private def src_enum_extended_tpb : String := "enum MyEnum {\n    #[1] Idle,\n    #[2] Move {\n        #[1] x: f64,\n        #[2] y: f64,\n    },\n    #[3] Update(#[1] f64, #[2] f64, #[4] String),\n}\n\nenum MyEnumWithoutPositions {\n    Option1(u64),\n    Option2 { name: String },\n    Option3,\n    Option4,\n}\n\nenum MyEnumWithManyArguments {\n    Option1(u64, u64, u64),\n    Option2 { name: String },\n    Option3,\n    Option4,\n}\n\nenum MyEnumWithNamedArguments {\n    Option1 {\n        name: String,\n        value: f32,\n        bytes: Vec<u8>\n    },\n    Option2(u64, u64, u64),\n    Option3,\n    Option4,\n}\n"
private def src_struct_tpb : String := "struct Empty;\n\nstruct ViewData {\n    delta_time: f32,\n    view_width: f32,\n    view_height: f32,\n    touch_start_x: f32,\n    touch_start_y: f32,\n    last_touch_x: f32,\n    last_touch_y: f32,\n    touch_x: f32,\n    touch_y: f32,\n}\n\nstruct Test {\n    #[1] touch_x: f32,\n    #[2] touch_y: f32,\n    #[3] touch_status: TouchStatus,\n}\n\nstruct GenericType {\n    items: Vec<Test>,\n    table: LinearTable<f32, Test>,\n}\n"

private def run (src : String) (f : List ASTNode → Except Panic String) (expected : String) : Bool :=
  match parseSource src with
  | .error _ => false
  | .ok ast => match f ast with
    | .ok s => s == expected
    | .error _ => false

#guard run src_consts_tpb (fun ast => KotlinGen.consts testExtF ast)
  "object Commands {\n    const val DRAW_LINES: ULong = 131073UL\n    const val DRAW_PATH: ULong = 131074UL\n    const val DRAW_QUADS: ULong = 131075UL\n    const val DRAW_CENTERED_QUADS: ULong = 131076UL\n    const val DRAW_TEXTS: ULong = 131077UL\n    const val SET_COLOR_PIPELINE: ULong = 131078UL\n    const val SET_TEXTURE_PIPELINE: ULong = 131079UL\n    const val DRAW_CIRCLES: ULong = 131080UL\n    const val DRAW_HOLLOW_CIRCLES: ULong = 131081UL\n}\n\nobject Addr {\n    const val SOME_VALUE: String = \"Hello World!\"\n\n    object Groups {\n        const val MAIN: ULong = 0UL\n        const val MAIN_RENDER: ULong = 1UL\n        const val RPC: ULong = 2UL\n        const val RPC_SYNC: ULong = 3UL\n        const val RPC_READ: ULong = 4UL\n    }\n\n    const val DELTA_TIME: Double = 16.6\n    const val FLAG: Boolean = true\n\n    object CommandsBuffers {\n        const val WIN1_MAIN_RENDER: ULong = 0UL\n    }\n}\n"
#guard run src_struct_empty_tpb (fun ast => KotlinGen.models testExtF ast)
  "class Empty() {\n    companion object {\n        fun createDefault(): Empty = Empty()\n    }\n}\n"
#guard run src_struct_basic_tpb (fun ast => KotlinGen.models testExtF ast)
  "data class ViewData(\n    val deltaTime: Float,\n    val viewWidth: Float,\n    val viewHeight: Float,\n    val touchStartX: Float,\n    val touchStartY: Float,\n    val lastTouchX: Float,\n    val lastTouchY: Float,\n    val touchX: Float,\n    val touchY: Float,\n) {\n    companion object {\n        fun createDefault(): ViewData = ViewData(\n            deltaTime = 0f,\n            viewWidth = 0f,\n            viewHeight = 0f,\n            touchStartX = 0f,\n            touchStartY = 0f,\n            lastTouchX = 0f,\n            lastTouchY = 0f,\n            touchX = 0f,\n            touchY = 0f,\n        )\n    }\n}\n"
#guard run src_struct_with_positions_tpb (fun ast => KotlinGen.models testExtF ast)
  "data class Test(\n    val touchX: Float,\n    val touchY: Float,\n    val touchStatus: TouchStatus,\n) {\n    companion object {\n        fun createDefault(): Test = Test(\n            touchX = 0f,\n            touchY = 0f,\n            touchStatus = TouchStatus.createDefault(),\n        )\n    }\n}\n"
#guard run src_struct_generics_tpb (fun ast => KotlinGen.models testExtF ast)
  "data class GenericType(\n    val items: List<Test>,\n    val table: LinearTable<Float, Test>,\n) {\n    companion object {\n        fun createDefault(): GenericType = GenericType(\n            items = listOf(),\n            table = LinearTable.createDefault<Float, Test>(),\n        )\n    }\n}\n"
#guard run src_enum_basic_tpb (fun ast => KotlinGen.models testExtF ast)
  "sealed interface MyEnumWithoutPositions {\n    companion object {\n        fun createDefault(): MyEnumWithoutPositions = MyEnumWithoutPositionsOption1(\n            0UL,\n        )\n    }\n}\n\ndata class MyEnumWithoutPositionsOption1(\n    val p0: ULong,\n) : MyEnumWithoutPositions\n\ndata class MyEnumWithoutPositionsOption2(\n    val name: String,\n) : MyEnumWithoutPositions\n\nobject MyEnumWithoutPositionsOption3 : MyEnumWithoutPositions\n\nobject MyEnumWithoutPositionsOption4 : MyEnumWithoutPositions\n"
#guard run src_enum_with_positions_tpb (fun ast => KotlinGen.models testExtF ast)
  "sealed interface MyEnum {\n    companion object {\n        fun createDefault(): MyEnum = MyEnumIdle\n    }\n}\n\nobject MyEnumIdle : MyEnum\n\ndata class MyEnumMove(\n    val x: Double,\n    val y: Double,\n) : MyEnum\n\ndata class MyEnumUpdate(\n    val p0: Double,\n    val p1: Double,\n    val p2: String,\n) : MyEnum\n"
#guard run src_enum_with_many_default_arguments_tpb (fun ast => KotlinGen.models testExtF ast)
  "sealed interface MyEnumWithManyArguments {\n    companion object {\n        fun createDefault(): MyEnumWithManyArguments = MyEnumWithManyArgumentsOption1(\n            0UL,\n            0UL,\n            0UL,\n        )\n    }\n}\n\ndata class MyEnumWithManyArgumentsOption1(\n    val p0: ULong,\n    val p1: ULong,\n    val p2: ULong,\n) : MyEnumWithManyArguments\n\ndata class MyEnumWithManyArgumentsOption2(\n    val name: String,\n) : MyEnumWithManyArguments\n\nobject MyEnumWithManyArgumentsOption3 : MyEnumWithManyArguments\n\nobject MyEnumWithManyArgumentsOption4 : MyEnumWithManyArguments\n"
#guard run src_enum_with_named_default_arguments_tpb (fun ast => KotlinGen.models testExtF ast)
  "sealed interface MyEnumWithNamedArguments {\n    companion object {\n        fun createDefault(): MyEnumWithNamedArguments = MyEnumWithNamedArgumentsOption1(\n            name = \"\",\n            value = 0f,\n            bytes = listOf(),\n        )\n    }\n}\n\ndata class MyEnumWithNamedArgumentsOption1(\n    val name: String,\n    val value: Float,\n    val bytes: List<UByte>,\n) : MyEnumWithNamedArguments\n\ndata class MyEnumWithNamedArgumentsOption2(\n    val p0: ULong,\n    val p1: ULong,\n    val p2: ULong,\n) : MyEnumWithNamedArguments\n\nobject MyEnumWithNamedArgumentsOption3 : MyEnumWithNamedArguments\n\nobject MyEnumWithNamedArgumentsOption4 : MyEnumWithNamedArguments\n"
#guard run src_enum_extended_tpb (fun ast => KotlinGen.models testExtF ast)
  "sealed interface MyEnum {\n    companion object {\n        fun createDefault(): MyEnum = MyEnumIdle\n    }\n}\n\nobject MyEnumIdle : MyEnum\n\ndata class MyEnumMove(\n    val x: Double,\n    val y: Double,\n) : MyEnum\n\ndata class MyEnumUpdate(\n    val p0: Double,\n    val p1: Double,\n    val p2: String,\n) : MyEnum\n\nsealed interface MyEnumWithoutPositions {\n    companion object {\n        fun createDefault(): MyEnumWithoutPositions = MyEnumWithoutPositionsOption1(\n            0UL,\n        )\n    }\n}\n\ndata class MyEnumWithoutPositionsOption1(\n    val p0: ULong,\n) : MyEnumWithoutPositions\n\ndata class MyEnumWithoutPositionsOption2(\n    val name: String,\n) : MyEnumWithoutPositions\n\nobject MyEnumWithoutPositionsOption3 : MyEnumWithoutPositions\n\nobject MyEnumWithoutPositionsOption4 : MyEnumWithoutPositions\n\nsealed interface MyEnumWithManyArguments {\n    companion object {\n        fun createDefault(): MyEnumWithManyArguments = MyEnumWithManyArgumentsOption1(\n            0UL,\n            0UL,\n            0UL,\n        )\n    }\n}\n\ndata class MyEnumWithManyArgumentsOption1(\n    val p0: ULong,\n    val p1: ULong,\n    val p2: ULong,\n) : MyEnumWithManyArguments\n\ndata class MyEnumWithManyArgumentsOption2(\n    val name: String,\n) : MyEnumWithManyArguments\n\nobject MyEnumWithManyArgumentsOption3 : MyEnumWithManyArguments\n\nobject MyEnumWithManyArgumentsOption4 : MyEnumWithManyArguments\n\nsealed interface MyEnumWithNamedArguments {\n    companion object {\n        fun createDefault(): MyEnumWithNamedArguments = MyEnumWithNamedArgumentsOption1(\n            name = \"\",\n            value = 0f,\n            bytes = listOf(),\n        )\n    }\n}\n\ndata class MyEnumWithNamedArgumentsOption1(\n    val name: String,\n    val value: Float,\n    val bytes: List<UByte>,\n) : MyEnumWithNamedArguments\n\ndata class MyEnumWithNamedArgumentsOption2(\n    val p0: ULong,\n    val p1: ULong,\n    val p2: ULong,\n) : MyEnumWithNamedArguments\n\nobject MyEnumWithNamedArgumentsOption3 : MyEnumWithNamedArguments\n\nobject MyEnumWithNamedArgumentsOption4 : MyEnumWithNamedArguments\n"
#guard run src_struct_tpb (fun ast => KotlinGen.models testExtF ast)
  "class Empty() {\n    companion object {\n        fun createDefault(): Empty = Empty()\n    }\n}\n\ndata class ViewData(\n    val deltaTime: Float,\n    val viewWidth: Float,\n    val viewHeight: Float,\n    val touchStartX: Float,\n    val touchStartY: Float,\n    val lastTouchX: Float,\n    val lastTouchY: Float,\n    val touchX: Float,\n    val touchY: Float,\n) {\n    companion object {\n        fun createDefault(): ViewData = ViewData(\n            deltaTime = 0f,\n            viewWidth = 0f,\n            viewHeight = 0f,\n            touchStartX = 0f,\n            touchStartY = 0f,\n            lastTouchX = 0f,\n            lastTouchY = 0f,\n            touchX = 0f,\n            touchY = 0f,\n        )\n    }\n}\n\ndata class Test(\n    val touchX: Float,\n    val touchY: Float,\n    val touchStatus: TouchStatus,\n) {\n    companion object {\n        fun createDefault(): Test = Test(\n            touchX = 0f,\n            touchY = 0f,\n            touchStatus = TouchStatus.createDefault(),\n        )\n    }\n}\n\ndata class GenericType(\n    val items: List<Test>,\n    val table: LinearTable<Float, Test>,\n) {\n    companion object {\n        fun createDefault(): GenericType = GenericType(\n            items = listOf(),\n            table = LinearTable.createDefault<Float, Test>(),\n        )\n    }\n}\n"

end TPB.Tests
