/- Generated by tools/golden.py: the model reproduces the golden files of /repo/test_resources. -/
import Verif.Model.Parser
import Verif.Model.DartGen
import Verif.Model.ToCase
namespace TPB.Tests

private def src_empty_tpb : String := ""
private def src_struct_tpb : String := "struct Empty;\n\nstruct ViewData {\n    delta_time: f32,\n    view_width: f32,\n    view_height: f32,\n    touch_start_x: f32,\n    touch_start_y: f32,\n    last_touch_x: f32,\n    last_touch_y: f32,\n    touch_x: f32,\n    touch_y: f32,\n}\n\nstruct Test {\n    #[1] touch_x: f32,\n    #[2] touch_y: f32,\n    #[3] touch_status: TouchStatus,\n}\n\nstruct GenericType {\n    items: Vec<Test>,\n    table: LinearTable<f32, Test>,\n}\n"
private def src_enum_tpb : String := "enum MyEnum {\n    #[1] Idle,\n    #[2] Move {\n        #[1] x: f64,\n        #[2] y: f64,\n    },\n    #[3] Update(#[1] f64, #[2] f64, #[4] String),\n}\n\nenum MyEnumWithoutPositions {\n    Option1(u64),\n    Option2 { name: String },\n    Option3,\n    Option4,\n}\n"
private def src_rpc_sync_methods_tpb : String := "#[id = \"4de616f8-12c5-4d2c-8d48-9c5fb038991f\"]\n#[namespace = \"examples_sync\"]\n\nfn print_hello_world();\n\nfn hello_world() -> String;\n\nfn say_hello(name: String) -> String;\n\nfn sum(a: i32, b: f32, c: f64) -> f64;\n"
private def src_rpc_async_methods_tpb : String := "#[id = \"106c2228-ff3b-45c5-8a55-db9c0537f275\"]\n#[namespace = \"examples_async\"]\n\nasync fn print_hello_world();\n\nasync fn hello_world() -> String;\n\nasync fn say_hello(name: String) -> String;\n\nasync fn sum(a: i32, b: f32, c: f64) -> f64;\n"
private def src_rpc_read_methods_tpb : String := "#[id = \"723ca727-6a66-43a7-bfcc-b8ad94eac9be\"]\n#[namespace = \"examples_read\"]\n\nread counter;\n\nread theme -> String;\n\nasync read async_trigger;\n\nasync read async_hello_read -> String;\n"
private def src_consts_tpb : String := "const commands {\n    DRAW_LINES: u64 = 0x0002_0001;\n    DRAW_PATH: u64 = 0x0002_0002;\n    DRAW_QUADS: u64 = 0x0002_0003;\n    DRAW_CENTERED_QUADS: u64 = 0x0002_0004;\n    DRAW_TEXTS: u64 = 0x0002_0005;\n    SET_COLOR_PIPELINE: u64 = 0x0002_0006;\n    SET_TEXTURE_PIPELINE: u64 = 0x0002_0007;\n    DRAW_CIRCLES: u64 = 0x0002_0008;\n    DRAW_HOLLOW_CIRCLES: u64 = 0x0002_0009;\n}\n\nconst addr {\n    SOME_VALUE: String = \"Hello World!\";\n\n    const groups {\n        MAIN: GroupAddress = 0;\n        MAIN_RENDER: GroupAddress = 1;\n        RPC: GroupAddress = 2;\n        RPC_SYNC: GroupAddress = 3;\n        RPC_READ: GroupAddress = 4;\n    }\n\n    DELTA_TIME: f64 = 16.6;\n    FLAG: bool = true;\n\n    const commands_buffers {\n        WIN1_MAIN_RENDER: CommandsBufferAddress = 0;\n    }\n}\n"
private def src_rpc_methods_tpb : String := "#[id = \"4de616f8-12c5-4d2c-8d48-9c5fb038991f\"]\n#[namespace = \"test\"]\n\nfn print_hello_world();\n\nfn hello_world() -> String;\n\nfn say_hello(name: String) -> String;\n\nfn sum(a: i32, b: f32, c: f64);\n\nasync fn print_hello_world_async();\n\nasync fn hello_world_async() -> String;\n\nasync fn say_hello_async(name: String) -> String;\n\nasync fn sum_async(a: i32, b: f32, c: f64) -> f64;\n\nread trigger;\n\nread theme -> Theme;\n\nasync read trigger_async;\n\nasync read theme_async -> Theme;\n"

private def run (src : String) (f : List ASTNode → Except Panic String) (expected : String) : Bool :=
  match parseSource src with
  | .error _ => false
  | .ok ast => match f ast with
    | .ok s => s == expected
    | .error _ => false

#guard run src_empty_tpb (fun ast => DartGen.generate testExt ast true true true)
  "// GENERATED, DO NOT EDIT\n// ignore_for_file: unused_import\n\nimport 'package:tech_paws_buffers/tech_paws_buffers.dart';\nimport 'package:tech_paws_buffers/primitives.dart';\n"
#guard run src_struct_tpb (fun ast => DartGen.models testExt ast)
  "class Empty {\n  const Empty();\n}\n\nclass EmptyBuffersFactory implements BuffersFactory<Empty> {\n  const EmptyBuffersFactory();\n\n  @override\n  Empty createDefault() => const Empty();\n}\n\nclass ViewData {\n  double deltaTime;\n  double viewWidth;\n  double viewHeight;\n  double touchStartX;\n  double touchStartY;\n  double lastTouchX;\n  double lastTouchY;\n  double touchX;\n  double touchY;\n\n  ViewData({\n    required this.deltaTime,\n    required this.viewWidth,\n    required this.viewHeight,\n    required this.touchStartX,\n    required this.touchStartY,\n    required this.lastTouchX,\n    required this.lastTouchY,\n    required this.touchX,\n    required this.touchY,\n  });\n\n  ViewData.createDefault()\n      : deltaTime = 0.0,\n        viewWidth = 0.0,\n        viewHeight = 0.0,\n        touchStartX = 0.0,\n        touchStartY = 0.0,\n        lastTouchX = 0.0,\n        lastTouchY = 0.0,\n        touchX = 0.0,\n        touchY = 0.0;\n}\n\nclass ViewDataBuffersFactory implements BuffersFactory<ViewData> {\n  const ViewDataBuffersFactory();\n\n  @override\n  ViewData createDefault() => ViewData.createDefault();\n}\n\nclass Test {\n  double touchX;\n  double touchY;\n  TouchStatus touchStatus;\n\n  Test({\n    required this.touchX,\n    required this.touchY,\n    required this.touchStatus,\n  });\n\n  Test.createDefault()\n      : touchX = 0.0,\n        touchY = 0.0,\n        touchStatus = const TouchStatusBuffersFactory().createDefault();\n}\n\nclass TestBuffersFactory implements BuffersFactory<Test> {\n  const TestBuffersFactory();\n\n  @override\n  Test createDefault() => Test.createDefault();\n}\n\nclass GenericType {\n  List<Test> items;\n  LinearTable<double, Test> table;\n\n  GenericType({\n    required this.items,\n    required this.table,\n  });\n\n  GenericType.createDefault()\n      : items = const ListBuffersFactory<Test>().createDefault(),\n        table = const LinearTableBuffersFactory<double, Test>().createDefault();\n}\n\nclass GenericTypeBuffersFactory implements BuffersFactory<GenericType> {\n  const GenericTypeBuffersFactory();\n\n  @override\n  GenericType createDefault() => GenericType.createDefault();\n}\n"
#guard run src_enum_tpb (fun ast => DartGen.models testExt ast)
  "enum MyEnumValue {\n  idle,\n  move,\n  update,\n}\n\nclass MyEnum {\n  MyEnumValue value = MyEnumValue.idle;\n  MyEnumIdle idle = const MyEnumIdle();\n  MyEnumMove move = MyEnumMove.createDefault();\n  MyEnumUpdate update = MyEnumUpdate.createDefault();\n\n  void toIdle() => value = MyEnumValue.idle;\n\n  void toMove({\n    required double x,\n    required double y,\n  }) {\n    value = MyEnumValue.move;\n    move.x = x;\n    move.y = y;\n  }\n\n  void toUpdate(\n    double v0,\n    double v1,\n    String v2,\n  ) {\n    value = MyEnumValue.update;\n    update.v0 = v0;\n    update.v1 = v1;\n    update.v2 = v2;\n  }\n\n  bool isIdle() => value == MyEnumValue.idle;\n  bool isMove() => value == MyEnumValue.move;\n  bool isUpdate() => value == MyEnumValue.update;\n\n  static MyEnum createIdle() {\n    final model = MyEnum();\n    model.value = MyEnumValue.idle;\n    return model;\n  }\n\n  static MyEnum createMove({\n    required double x,\n    required double y,\n  }) {\n    final model = MyEnum();\n    model.value = MyEnumValue.move;\n    model.move.x = x;\n    model.move.y = y;\n    return model;\n  }\n\n  static MyEnum createUpdate(\n    double v0,\n    double v1,\n    String v2,\n  ) {\n    final model = MyEnum();\n    model.value = MyEnumValue.update;\n    model.update.v0 = v0;\n    model.update.v1 = v1;\n    model.update.v2 = v2;\n    return model;\n  }\n}\n\nclass MyEnumBuffersFactory implements BuffersFactory<MyEnum> {\n  const MyEnumBuffersFactory();\n\n  @override\n  MyEnum createDefault() => MyEnum();\n}\n\nclass MyEnumIdle {\n  const MyEnumIdle();\n}\n\nclass MyEnumIdleBuffersFactory implements BuffersFactory<MyEnumIdle> {\n  const MyEnumIdleBuffersFactory();\n\n  @override\n  MyEnumIdle createDefault() => const MyEnumIdle();\n}\n\nclass MyEnumMove {\n  double x;\n  double y;\n\n  MyEnumMove({\n    required this.x,\n    required this.y,\n  });\n\n  MyEnumMove.createDefault()\n      : x = 0.0,\n        y = 0.0;\n}\n\nclass MyEnumMoveBuffersFactory implements BuffersFactory<MyEnumMove> {\n  const MyEnumMoveBuffersFactory();\n\n  @override\n  MyEnumMove createDefault() => MyEnumMove.createDefault();\n}\n\nclass MyEnumUpdate {\n  double v0;\n  double v1;\n  String v2;\n\n  MyEnumUpdate({\n    required this.v0,\n    required this.v1,\n    required this.v2,\n  });\n\n  MyEnumUpdate.createDefault()\n      : v0 = 0.0,\n        v1 = 0.0,\n        v2 = const StringBuffersFactory().createDefault();\n}\n\nclass MyEnumUpdateBuffersFactory implements BuffersFactory<MyEnumUpdate> {\n  const MyEnumUpdateBuffersFactory();\n\n  @override\n  MyEnumUpdate createDefault() => MyEnumUpdate.createDefault();\n}\nenum MyEnumWithoutPositionsValue {\n  option1,\n  option2,\n  option3,\n  option4,\n}\n\nclass MyEnumWithoutPositions {\n  MyEnumWithoutPositionsValue value = MyEnumWithoutPositionsValue.option1;\n  MyEnumWithoutPositionsOption1 option1 = MyEnumWithoutPositionsOption1.createDefault();\n  MyEnumWithoutPositionsOption2 option2 = MyEnumWithoutPositionsOption2.createDefault();\n  MyEnumWithoutPositionsOption3 option3 = const MyEnumWithoutPositionsOption3();\n  MyEnumWithoutPositionsOption4 option4 = const MyEnumWithoutPositionsOption4();\n\n  void toOption1(\n    int v0,\n  ) {\n    value = MyEnumWithoutPositionsValue.option1;\n    option1.v0 = v0;\n  }\n\n  void toOption2({\n    required String name,\n  }) {\n    value = MyEnumWithoutPositionsValue.option2;\n    option2.name = name;\n  }\n\n  void toOption3() => value = MyEnumWithoutPositionsValue.option3;\n\n  void toOption4() => value = MyEnumWithoutPositionsValue.option4;\n\n  bool isOption1() => value == MyEnumWithoutPositionsValue.option1;\n  bool isOption2() => value == MyEnumWithoutPositionsValue.option2;\n  bool isOption3() => value == MyEnumWithoutPositionsValue.option3;\n  bool isOption4() => value == MyEnumWithoutPositionsValue.option4;\n\n  static MyEnumWithoutPositions createOption1(\n    int v0,\n  ) {\n    final model = MyEnumWithoutPositions();\n    model.value = MyEnumWithoutPositionsValue.option1;\n    model.option1.v0 = v0;\n    return model;\n  }\n\n  static MyEnumWithoutPositions createOption2({\n    required String name,\n  }) {\n    final model = MyEnumWithoutPositions();\n    model.value = MyEnumWithoutPositionsValue.option2;\n    model.option2.name = name;\n    return model;\n  }\n\n  static MyEnumWithoutPositions createOption3() {\n    final model = MyEnumWithoutPositions();\n    model.value = MyEnumWithoutPositionsValue.option3;\n    return model;\n  }\n\n  static MyEnumWithoutPositions createOption4() {\n    final model = MyEnumWithoutPositions();\n    model.value = MyEnumWithoutPositionsValue.option4;\n    return model;\n  }\n}\n\nclass MyEnumWithoutPositionsBuffersFactory implements BuffersFactory<MyEnumWithoutPositions> {\n  const MyEnumWithoutPositionsBuffersFactory();\n\n  @override\n  MyEnumWithoutPositions createDefault() => MyEnumWithoutPositions();\n}\n\nclass MyEnumWithoutPositionsOption1 {\n  int v0;\n\n  MyEnumWithoutPositionsOption1({\n    required this.v0,\n  });\n\n  MyEnumWithoutPositionsOption1.createDefault()\n      : v0 = 0;\n}\n\nclass MyEnumWithoutPositionsOption1BuffersFactory implements BuffersFactory<MyEnumWithoutPositionsOption1> {\n  const MyEnumWithoutPositionsOption1BuffersFactory();\n\n  @override\n  MyEnumWithoutPositionsOption1 createDefault() => MyEnumWithoutPositionsOption1.createDefault();\n}\n\nclass MyEnumWithoutPositionsOption2 {\n  String name;\n\n  MyEnumWithoutPositionsOption2({\n    required this.name,\n  });\n\n  MyEnumWithoutPositionsOption2.createDefault()\n      : name = const StringBuffersFactory().createDefault();\n}\n\nclass MyEnumWithoutPositionsOption2BuffersFactory implements BuffersFactory<MyEnumWithoutPositionsOption2> {\n  const MyEnumWithoutPositionsOption2BuffersFactory();\n\n  @override\n  MyEnumWithoutPositionsOption2 createDefault() => MyEnumWithoutPositionsOption2.createDefault();\n}\n\nclass MyEnumWithoutPositionsOption3 {\n  const MyEnumWithoutPositionsOption3();\n}\n\nclass MyEnumWithoutPositionsOption3BuffersFactory implements BuffersFactory<MyEnumWithoutPositionsOption3> {\n  const MyEnumWithoutPositionsOption3BuffersFactory();\n\n  @override\n  MyEnumWithoutPositionsOption3 createDefault() => const MyEnumWithoutPositionsOption3();\n}\n\nclass MyEnumWithoutPositionsOption4 {\n  const MyEnumWithoutPositionsOption4();\n}\n\nclass MyEnumWithoutPositionsOption4BuffersFactory implements BuffersFactory<MyEnumWithoutPositionsOption4> {\n  const MyEnumWithoutPositionsOption4BuffersFactory();\n\n  @override\n  MyEnumWithoutPositionsOption4 createDefault() => const MyEnumWithoutPositionsOption4();\n}\n"
#guard run src_struct_tpb (fun ast => DartGen.buffers testExt ast)
  "class EmptyEmplaceToBuffers implements EmplaceToBuffers<Empty> {\n  const EmptyEmplaceToBuffers();\n\n  @override\n  void read(BytesReader reader, Empty model) {\n  }\n\n  @override\n  void write(BytesWriter writer, Empty model) {\n  }\n\n  @override\n  void skip(BytesReader reader, int count) {\n    for (int i = 0; i < count; i += 1) {\n    }\n  }\n}\n\nclass EmptyIntoBuffers implements IntoBuffers<Empty> {\n  const EmptyIntoBuffers();\n\n  @override\n  Empty read(BytesReader reader) {\n\n    return Empty(\n    );\n  }\n\n  @override\n  void write(BytesWriter writer, Empty model) {\n  }\n\n  @override\n  void skip(BytesReader reader, int count) {\n    for (int i = 0; i < count; i += 1) {\n    }\n  }\n}\n\nclass ViewDataEmplaceToBuffers implements EmplaceToBuffers<ViewData> {\n  const ViewDataEmplaceToBuffers();\n\n  @override\n  void read(BytesReader reader, ViewData model) {\n    model.deltaTime = reader.readFloat();\n    model.viewWidth = reader.readFloat();\n    model.viewHeight = reader.readFloat();\n    model.touchStartX = reader.readFloat();\n    model.touchStartY = reader.readFloat();\n    model.lastTouchX = reader.readFloat();\n    model.lastTouchY = reader.readFloat();\n    model.touchX = reader.readFloat();\n    model.touchY = reader.readFloat();\n  }\n\n  @override\n  void write(BytesWriter writer, ViewData model) {\n    writer.writeFloat(model.deltaTime);\n    writer.writeFloat(model.viewWidth);\n    writer.writeFloat(model.viewHeight);\n    writer.writeFloat(model.touchStartX);\n    writer.writeFloat(model.touchStartY);\n    writer.writeFloat(model.lastTouchX);\n    writer.writeFloat(model.lastTouchY);\n    writer.writeFloat(model.touchX);\n    writer.writeFloat(model.touchY);\n  }\n\n  @override\n  void skip(BytesReader reader, int count) {\n    for (int i = 0; i < count; i += 1) {\n      reader.readFloat();\n      reader.readFloat();\n      reader.readFloat();\n      reader.readFloat();\n      reader.readFloat();\n      reader.readFloat();\n      reader.readFloat();\n      reader.readFloat();\n      reader.readFloat();\n    }\n  }\n}\n\nclass ViewDataIntoBuffers implements IntoBuffers<ViewData> {\n  const ViewDataIntoBuffers();\n\n  @override\n  ViewData read(BytesReader reader) {\n    final deltaTime = reader.readFloat();\n    final viewWidth = reader.readFloat();\n    final viewHeight = reader.readFloat();\n    final touchStartX = reader.readFloat();\n    final touchStartY = reader.readFloat();\n    final lastTouchX = reader.readFloat();\n    final lastTouchY = reader.readFloat();\n    final touchX = reader.readFloat();\n    final touchY = reader.readFloat();\n\n    return ViewData(\n      deltaTime: deltaTime,\n      viewWidth: viewWidth,\n      viewHeight: viewHeight,\n      touchStartX: touchStartX,\n      touchStartY: touchStartY,\n      lastTouchX: lastTouchX,\n      lastTouchY: lastTouchY,\n      touchX: touchX,\n      touchY: touchY,\n    );\n  }\n\n  @override\n  void write(BytesWriter writer, ViewData model) {\n    writer.writeFloat(model.deltaTime);\n    writer.writeFloat(model.viewWidth);\n    writer.writeFloat(model.viewHeight);\n    writer.writeFloat(model.touchStartX);\n    writer.writeFloat(model.touchStartY);\n    writer.writeFloat(model.lastTouchX);\n    writer.writeFloat(model.lastTouchY);\n    writer.writeFloat(model.touchX);\n    writer.writeFloat(model.touchY);\n  }\n\n  @override\n  void skip(BytesReader reader, int count) {\n    for (int i = 0; i < count; i += 1) {\n      reader.readFloat();\n      reader.readFloat();\n      reader.readFloat();\n      reader.readFloat();\n      reader.readFloat();\n      reader.readFloat();\n      reader.readFloat();\n      reader.readFloat();\n      reader.readFloat();\n    }\n  }\n}\n\nclass TestEmplaceToBuffers implements EmplaceToBuffers<Test> {\n  const TestEmplaceToBuffers();\n\n  @override\n  void read(BytesReader reader, Test model) {\n    model.touchX = reader.readFloat();\n    model.touchY = reader.readFloat();\n    const TouchStatusEmplaceToBuffers().read(reader, model.touchStatus);\n  }\n\n  @override\n  void write(BytesWriter writer, Test model) {\n    writer.writeFloat(model.touchX);\n    writer.writeFloat(model.touchY);\n    const TouchStatusEmplaceToBuffers().write(writer, model.touchStatus);\n  }\n\n  @override\n  void skip(BytesReader reader, int count) {\n    const TouchStatusEmplaceToBuffers().skip(reader, 1);\n\n    for (int i = 0; i < count; i += 1) {\n      reader.readFloat();\n      reader.readFloat();\n    }\n  }\n}\n\nclass TestIntoBuffers implements IntoBuffers<Test> {\n  const TestIntoBuffers();\n\n  @override\n  Test read(BytesReader reader) {\n    final touchX = reader.readFloat();\n    final touchY = reader.readFloat();\n    final touchStatus = const TouchStatusIntoBuffers().read(reader);\n\n    return Test(\n      touchX: touchX,\n      touchY: touchY,\n      touchStatus: touchStatus,\n    );\n  }\n\n  @override\n  void write(BytesWriter writer, Test model) {\n    writer.writeFloat(model.touchX);\n    writer.writeFloat(model.touchY);\n    const TouchStatusIntoBuffers().write(writer, model.touchStatus);\n  }\n\n  @override\n  void skip(BytesReader reader, int count) {\n    const TouchStatusIntoBuffers().skip(reader, 1);\n\n    for (int i = 0; i < count; i += 1) {\n      reader.readFloat();\n      reader.readFloat();\n    }\n  }\n}\n\nclass GenericTypeEmplaceToBuffers implements EmplaceToBuffers<GenericType> {\n  const GenericTypeEmplaceToBuffers();\n\n  @override\n  void read(BytesReader reader, GenericType model) {\n    const ListEmplaceToBuffers<Test>(const TestIntoBuffers()).read(reader, model.items);\n    const LinearTableEmplaceToBuffers<double, Test>().read(reader, model.table);\n  }\n\n  @override\n  void write(BytesWriter writer, GenericType model) {\n    const ListEmplaceToBuffers<Test>(const TestIntoBuffers()).write(writer, model.items);\n    const LinearTableEmplaceToBuffers<double, Test>().write(writer, model.table);\n  }\n\n  @override\n  void skip(BytesReader reader, int count) {\n    for (int i = 0; i < count; i += 1) {\n      const ListEmplaceToBuffers<Test>(const TestIntoBuffers()).skip(reader, 1);\n      const LinearTableEmplaceToBuffers<double, Test>().skip(reader, 1);\n    }\n  }\n}\n\nclass GenericTypeIntoBuffers implements IntoBuffers<GenericType> {\n  const GenericTypeIntoBuffers();\n\n  @override\n  GenericType read(BytesReader reader) {\n    final items = const ListIntoBuffers<Test>(const TestIntoBuffers()).read(reader);\n    final table = const LinearTableIntoBuffers<double, Test>().read(reader);\n\n    return GenericType(\n      items: items,\n      table: table,\n    );\n  }\n\n  @override\n  void write(BytesWriter writer, GenericType model) {\n    const ListIntoBuffers<Test>(const TestIntoBuffers()).write(writer, model.items);\n    const LinearTableIntoBuffers<double, Test>().write(writer, model.table);\n  }\n\n  @override\n  void skip(BytesReader reader, int count) {\n    for (int i = 0; i < count; i += 1) {\n      const ListIntoBuffers<Test>(const TestIntoBuffers()).skip(reader, 1);\n      const LinearTableIntoBuffers<double, Test>().skip(reader, 1);\n    }\n  }\n}\n"
#guard run src_enum_tpb (fun ast => DartGen.buffers testExt ast)
  "class MyEnumIdleEmplaceToBuffers implements EmplaceToBuffers<MyEnumIdle> {\n  const MyEnumIdleEmplaceToBuffers();\n\n  @override\n  void read(BytesReader reader, MyEnumIdle model) {\n  }\n\n  @override\n  void write(BytesWriter writer, MyEnumIdle model) {\n  }\n\n  @override\n  void skip(BytesReader reader, int count) {\n    for (int i = 0; i < count; i += 1) {\n    }\n  }\n}\n\nclass MyEnumMoveEmplaceToBuffers implements EmplaceToBuffers<MyEnumMove> {\n  const MyEnumMoveEmplaceToBuffers();\n\n  @override\n  void read(BytesReader reader, MyEnumMove model) {\n    model.x = reader.readDouble();\n    model.y = reader.readDouble();\n  }\n\n  @override\n  void write(BytesWriter writer, MyEnumMove model) {\n    writer.writeDouble(model.x);\n    writer.writeDouble(model.y);\n  }\n\n  @override\n  void skip(BytesReader reader, int count) {\n    for (int i = 0; i < count; i += 1) {\n      reader.readDouble();\n      reader.readDouble();\n    }\n  }\n}\n\nclass MyEnumUpdateEmplaceToBuffers implements EmplaceToBuffers<MyEnumUpdate> {\n  const MyEnumUpdateEmplaceToBuffers();\n\n  @override\n  void read(BytesReader reader, MyEnumUpdate model) {\n    model.v0 = reader.readDouble();\n    model.v1 = reader.readDouble();\n    model.v2 = const StringIntoBuffers().read(reader);\n  }\n\n  @override\n  void write(BytesWriter writer, MyEnumUpdate model) {\n    writer.writeDouble(model.v0);\n    writer.writeDouble(model.v1);\n    const StringIntoBuffers().write(writer, model.v2);\n  }\n\n  @override\n  void skip(BytesReader reader, int count) {\n    const StringIntoBuffers().skip(reader, 1);\n\n    for (int i = 0; i < count; i += 1) {\n      reader.readDouble();\n      reader.readDouble();\n    }\n  }\n}\n\nclass MyEnumIntoBuffers implements IntoBuffers<MyEnum> {\n  const MyEnumIntoBuffers();\n\n  @override\n  MyEnum read(BytesReader reader) {\n    final value = reader.readInt32();\n\n    switch (value) {\n      case 1:\n        final model = MyEnum();\n        model.value = MyEnumValue.idle;\n        const MyEnumIdleEmplaceToBuffers().read(reader, model.idle);\n        return model;\n\n      case 2:\n        final model = MyEnum();\n        model.value = MyEnumValue.move;\n        const MyEnumMoveEmplaceToBuffers().read(reader, model.move);\n        return model;\n\n      case 3:\n        final model = MyEnum();\n        model.value = MyEnumValue.update;\n        const MyEnumUpdateEmplaceToBuffers().read(reader, model.update);\n        return model;\n\n      default:\n        throw StateError('Unsupported enum value: $value');\n    }\n  }\n\n  @override\n  void write(BytesWriter writer, MyEnum model) {\n    switch (model.value) {\n      case MyEnumValue.idle:\n        writer.writeInt32(1);\n        const MyEnumIdleEmplaceToBuffers().write(writer, model.idle);\n        return;\n\n      case MyEnumValue.move:\n        writer.writeInt32(2);\n        const MyEnumMoveEmplaceToBuffers().write(writer, model.move);\n        return;\n\n      case MyEnumValue.update:\n        writer.writeInt32(3);\n        const MyEnumUpdateEmplaceToBuffers().write(writer, model.update);\n        return;\n    }\n  }\n\n  @override\n  void skip(BytesReader reader, int count) {\n    for (int i = 0; i < count; i += 1) {\n      final value = reader.readInt32();\n\n      switch (value) {\n        case 1:\n          const MyEnumIdleEmplaceToBuffers().skip(reader, 1);\n          break;\n\n        case 2:\n          const MyEnumMoveEmplaceToBuffers().skip(reader, 1);\n          break;\n\n        case 3:\n          const MyEnumUpdateEmplaceToBuffers().skip(reader, 1);\n          break;\n\n        default:\n          throw StateError('Unsupported enum value: $value');\n      }\n    }\n  }\n}\n\nclass MyEnumEmplaceToBuffers implements EmplaceToBuffers<MyEnum> {\n  const MyEnumEmplaceToBuffers();\n\n  @override\n  void read(BytesReader reader, MyEnum model) {\n    final value = reader.readInt32();\n\n    switch (value) {\n      case 1:\n        model.value = MyEnumValue.idle;\n        const MyEnumIdleEmplaceToBuffers().read(reader, model.idle);\n        return;\n\n      case 2:\n        model.value = MyEnumValue.move;\n        const MyEnumMoveEmplaceToBuffers().read(reader, model.move);\n        return;\n\n      case 3:\n        model.value = MyEnumValue.update;\n        const MyEnumUpdateEmplaceToBuffers().read(reader, model.update);\n        return;\n\n      default:\n        throw StateError('Unsupported enum value: $value');\n    }\n  }\n\n  @override\n  void write(BytesWriter writer, MyEnum model) {\n    switch (model.value) {\n      case MyEnumValue.idle:\n        writer.writeInt32(1);\n        const MyEnumIdleEmplaceToBuffers().write(writer, model.idle);\n        return;\n\n      case MyEnumValue.move:\n        writer.writeInt32(2);\n        const MyEnumMoveEmplaceToBuffers().write(writer, model.move);\n        return;\n\n      case MyEnumValue.update:\n        writer.writeInt32(3);\n        const MyEnumUpdateEmplaceToBuffers().write(writer, model.update);\n        return;\n    }\n  }\n\n  @override\n  void skip(BytesReader reader, int count) {\n    for (int i = 0; i < count; i += 1) {\n      final value = reader.readInt32();\n\n      switch (value) {\n        case 1:\n          const MyEnumIdleEmplaceToBuffers().skip(reader, 1);\n          break;\n\n        case 2:\n          const MyEnumMoveEmplaceToBuffers().skip(reader, 1);\n          break;\n\n        case 3:\n          const MyEnumUpdateEmplaceToBuffers().skip(reader, 1);\n          break;\n\n        default:\n          throw StateError('Unsupported enum value: $value');\n      }\n    }\n  }\n}\n\nclass MyEnumWithoutPositionsOption1EmplaceToBuffers implements EmplaceToBuffers<MyEnumWithoutPositionsOption1> {\n  const MyEnumWithoutPositionsOption1EmplaceToBuffers();\n\n  @override\n  void read(BytesReader reader, MyEnumWithoutPositionsOption1 model) {\n    model.v0 = reader.readInt64();\n  }\n\n  @override\n  void write(BytesWriter writer, MyEnumWithoutPositionsOption1 model) {\n    writer.writeInt64(model.v0);\n  }\n\n  @override\n  void skip(BytesReader reader, int count) {\n    for (int i = 0; i < count; i += 1) {\n      reader.readInt64();\n    }\n  }\n}\n\nclass MyEnumWithoutPositionsOption2EmplaceToBuffers implements EmplaceToBuffers<MyEnumWithoutPositionsOption2> {\n  const MyEnumWithoutPositionsOption2EmplaceToBuffers();\n\n  @override\n  void read(BytesReader reader, MyEnumWithoutPositionsOption2 model) {\n    model.name = const StringIntoBuffers().read(reader);\n  }\n\n  @override\n  void write(BytesWriter writer, MyEnumWithoutPositionsOption2 model) {\n    const StringIntoBuffers().write(writer, model.name);\n  }\n\n  @override\n  void skip(BytesReader reader, int count) {\n    const StringIntoBuffers().skip(reader, 1);\n\n    for (int i = 0; i < count; i += 1) {\n    }\n  }\n}\n\nclass MyEnumWithoutPositionsOption3EmplaceToBuffers implements EmplaceToBuffers<MyEnumWithoutPositionsOption3> {\n  const MyEnumWithoutPositionsOption3EmplaceToBuffers();\n\n  @override\n  void read(BytesReader reader, MyEnumWithoutPositionsOption3 model) {\n  }\n\n  @override\n  void write(BytesWriter writer, MyEnumWithoutPositionsOption3 model) {\n  }\n\n  @override\n  void skip(BytesReader reader, int count) {\n    for (int i = 0; i < count; i += 1) {\n    }\n  }\n}\n\nclass MyEnumWithoutPositionsOption4EmplaceToBuffers implements EmplaceToBuffers<MyEnumWithoutPositionsOption4> {\n  const MyEnumWithoutPositionsOption4EmplaceToBuffers();\n\n  @override\n  void read(BytesReader reader, MyEnumWithoutPositionsOption4 model) {\n  }\n\n  @override\n  void write(BytesWriter writer, MyEnumWithoutPositionsOption4 model) {\n  }\n\n  @override\n  void skip(BytesReader reader, int count) {\n    for (int i = 0; i < count; i += 1) {\n    }\n  }\n}\n\nclass MyEnumWithoutPositionsIntoBuffers implements IntoBuffers<MyEnumWithoutPositions> {\n  const MyEnumWithoutPositionsIntoBuffers();\n\n  @override\n  MyEnumWithoutPositions read(BytesReader reader) {\n    final value = reader.readInt32();\n\n    switch (value) {\n      case 0:\n        final model = MyEnumWithoutPositions();\n        model.value = MyEnumWithoutPositionsValue.option1;\n        const MyEnumWithoutPositionsOption1EmplaceToBuffers().read(reader, model.option1);\n        return model;\n\n      case 1:\n        final model = MyEnumWithoutPositions();\n        model.value = MyEnumWithoutPositionsValue.option2;\n        const MyEnumWithoutPositionsOption2EmplaceToBuffers().read(reader, model.option2);\n        return model;\n\n      case 2:\n        final model = MyEnumWithoutPositions();\n        model.value = MyEnumWithoutPositionsValue.option3;\n        const MyEnumWithoutPositionsOption3EmplaceToBuffers().read(reader, model.option3);\n        return model;\n\n      case 3:\n        final model = MyEnumWithoutPositions();\n        model.value = MyEnumWithoutPositionsValue.option4;\n        const MyEnumWithoutPositionsOption4EmplaceToBuffers().read(reader, model.option4);\n        return model;\n\n      default:\n        throw StateError('Unsupported enum value: $value');\n    }\n  }\n\n  @override\n  void write(BytesWriter writer, MyEnumWithoutPositions model) {\n    switch (model.value) {\n      case MyEnumWithoutPositionsValue.option1:\n        writer.writeInt32(0);\n        const MyEnumWithoutPositionsOption1EmplaceToBuffers().write(writer, model.option1);\n        return;\n\n      case MyEnumWithoutPositionsValue.option2:\n        writer.writeInt32(1);\n        const MyEnumWithoutPositionsOption2EmplaceToBuffers().write(writer, model.option2);\n        return;\n\n      case MyEnumWithoutPositionsValue.option3:\n        writer.writeInt32(2);\n        const MyEnumWithoutPositionsOption3EmplaceToBuffers().write(writer, model.option3);\n        return;\n\n      case MyEnumWithoutPositionsValue.option4:\n        writer.writeInt32(3);\n        const MyEnumWithoutPositionsOption4EmplaceToBuffers().write(writer, model.option4);\n        return;\n    }\n  }\n\n  @override\n  void skip(BytesReader reader, int count) {\n    for (int i = 0; i < count; i += 1) {\n      final value = reader.readInt32();\n\n      switch (value) {\n        case 0:\n          const MyEnumWithoutPositionsOption1EmplaceToBuffers().skip(reader, 1);\n          break;\n\n        case 1:\n          const MyEnumWithoutPositionsOption2EmplaceToBuffers().skip(reader, 1);\n          break;\n\n        case 2:\n          const MyEnumWithoutPositionsOption3EmplaceToBuffers().skip(reader, 1);\n          break;\n\n        case 3:\n          const MyEnumWithoutPositionsOption4EmplaceToBuffers().skip(reader, 1);\n          break;\n\n        default:\n          throw StateError('Unsupported enum value: $value');\n      }\n    }\n  }\n}\n\nclass MyEnumWithoutPositionsEmplaceToBuffers implements EmplaceToBuffers<MyEnumWithoutPositions> {\n  const MyEnumWithoutPositionsEmplaceToBuffers();\n\n  @override\n  void read(BytesReader reader, MyEnumWithoutPositions model) {\n    final value = reader.readInt32();\n\n    switch (value) {\n      case 0:\n        model.value = MyEnumWithoutPositionsValue.option1;\n        const MyEnumWithoutPositionsOption1EmplaceToBuffers().read(reader, model.option1);\n        return;\n\n      case 1:\n        model.value = MyEnumWithoutPositionsValue.option2;\n        const MyEnumWithoutPositionsOption2EmplaceToBuffers().read(reader, model.option2);\n        return;\n\n      case 2:\n        model.value = MyEnumWithoutPositionsValue.option3;\n        const MyEnumWithoutPositionsOption3EmplaceToBuffers().read(reader, model.option3);\n        return;\n\n      case 3:\n        model.value = MyEnumWithoutPositionsValue.option4;\n        const MyEnumWithoutPositionsOption4EmplaceToBuffers().read(reader, model.option4);\n        return;\n\n      default:\n        throw StateError('Unsupported enum value: $value');\n    }\n  }\n\n  @override\n  void write(BytesWriter writer, MyEnumWithoutPositions model) {\n    switch (model.value) {\n      case MyEnumWithoutPositionsValue.option1:\n        writer.writeInt32(0);\n        const MyEnumWithoutPositionsOption1EmplaceToBuffers().write(writer, model.option1);\n        return;\n\n      case MyEnumWithoutPositionsValue.option2:\n        writer.writeInt32(1);\n        const MyEnumWithoutPositionsOption2EmplaceToBuffers().write(writer, model.option2);\n        return;\n\n      case MyEnumWithoutPositionsValue.option3:\n        writer.writeInt32(2);\n        const MyEnumWithoutPositionsOption3EmplaceToBuffers().write(writer, model.option3);\n        return;\n\n      case MyEnumWithoutPositionsValue.option4:\n        writer.writeInt32(3);\n        const MyEnumWithoutPositionsOption4EmplaceToBuffers().write(writer, model.option4);\n        return;\n    }\n  }\n\n  @override\n  void skip(BytesReader reader, int count) {\n    for (int i = 0; i < count; i += 1) {\n      final value = reader.readInt32();\n\n      switch (value) {\n        case 0:\n          const MyEnumWithoutPositionsOption1EmplaceToBuffers().skip(reader, 1);\n          break;\n\n        case 1:\n          const MyEnumWithoutPositionsOption2EmplaceToBuffers().skip(reader, 1);\n          break;\n\n        case 2:\n          const MyEnumWithoutPositionsOption3EmplaceToBuffers().skip(reader, 1);\n          break;\n\n        case 3:\n          const MyEnumWithoutPositionsOption4EmplaceToBuffers().skip(reader, 1);\n          break;\n\n        default:\n          throw StateError('Unsupported enum value: $value');\n      }\n    }\n  }\n}\n"
#guard run src_rpc_sync_methods_tpb (fun ast => DartGen.rpcMethods testExt ast)
  "class ExamplesSyncRpcClient {\n  ExamplesSyncRpcClient(this._scheduler);\n\n  final TechPawsRuntimeRpcScheduler _scheduler;\n  static const _scopeId = '4de616f8-12c5-4d2c-8d48-9c5fb038991f';\n\n  void disconnect() {\n  }\n\n  void printHelloWorld() {\n    _scheduler.syncWrite(\n      _scopeId,\n      0,\n      TechPawsRuntimeRpcMethodBuffer.server,\n      (writer) {\n        writer.writeInt8(TechPawsRpcBufferStatus.hasData.value);\n      },\n    );\n\n    _scheduler.loopSyncGroup();\n\n  }\n\n  String helloWorld() {\n    _scheduler.syncWrite(\n      _scopeId,\n      1,\n      TechPawsRuntimeRpcMethodBuffer.server,\n      (writer) {\n        writer.writeInt8(TechPawsRpcBufferStatus.hasData.value);\n      },\n    );\n\n    _scheduler.loopSyncGroup();\n\n    final result = _scheduler.syncRead<String>(\n      _scopeId,\n      1,\n      TechPawsRuntimeRpcMethodBuffer.client,\n      (reader) {\n        final status = reader.readInt8();\n\n        if (status != TechPawsRpcBufferStatus.hasData.value) {\n          throw StateError('No data');\n        }\n\n        return const StringIntoBuffers().read(reader);\n      },\n    );\n\n    return result;\n  }\n\n  String sayHello({\n    required String name,\n  }) {\n    _scheduler.syncWrite(\n      _scopeId,\n      2,\n      TechPawsRuntimeRpcMethodBuffer.server,\n      (writer) {\n        writer.writeInt8(TechPawsRpcBufferStatus.hasData.value);\n        const StringIntoBuffers().write(writer, name);\n      },\n    );\n\n    _scheduler.loopSyncGroup();\n\n    final result = _scheduler.syncRead<String>(\n      _scopeId,\n      2,\n      TechPawsRuntimeRpcMethodBuffer.client,\n      (reader) {\n        final status = reader.readInt8();\n\n        if (status != TechPawsRpcBufferStatus.hasData.value) {\n          throw StateError('No data');\n        }\n\n        return const StringIntoBuffers().read(reader);\n      },\n    );\n\n    return result;\n  }\n\n  double sum({\n    required int a,\n    required double b,\n    required double c,\n  }) {\n    _scheduler.syncWrite(\n      _scopeId,\n      3,\n      TechPawsRuntimeRpcMethodBuffer.server,\n      (writer) {\n        writer.writeInt8(TechPawsRpcBufferStatus.hasData.value);\n        writer.writeInt32(a);\n        writer.writeFloat(b);\n        writer.writeDouble(c);\n      },\n    );\n\n    _scheduler.loopSyncGroup();\n\n    final result = _scheduler.syncRead<double>(\n      _scopeId,\n      3,\n      TechPawsRuntimeRpcMethodBuffer.client,\n      (reader) {\n        final status = reader.readInt8();\n\n        if (status != TechPawsRpcBufferStatus.hasData.value) {\n          throw StateError('No data');\n        }\n\n        return reader.readDouble();\n      },\n    );\n\n    return result;\n  }\n}\n"
#guard run src_rpc_async_methods_tpb (fun ast => DartGen.rpcMethods testExt ast)
  "class ExamplesAsyncRpcClient {\n  ExamplesAsyncRpcClient(this._scheduler) {\n    _connectPrintHelloWorld();\n    _connectHelloWorld();\n    _connectSayHello();\n    _connectSum();\n  }\n\n  final TechPawsRuntimeRpcScheduler _scheduler;\n  static const _scopeId = '106c2228-ff3b-45c5-8a55-db9c0537f275';\n\n  int _lastPrintHelloWorldMethodId = 0;\n  final _printHelloWorldCompleters = <int, Completer<void>>{};\n  late final TechPawsRuntimeRpcReadTask _readPrintHelloWorldTask;\n\n  int _lastHelloWorldMethodId = 0;\n  final _helloWorldCompleters = <int, Completer<String>>{};\n  late final TechPawsRuntimeRpcReadTask _readHelloWorldTask;\n\n  int _lastSayHelloMethodId = 0;\n  final _sayHelloCompleters = <int, Completer<String>>{};\n  late final TechPawsRuntimeRpcReadTask _readSayHelloTask;\n\n  int _lastSumMethodId = 0;\n  final _sumCompleters = <int, Completer<double>>{};\n  late final TechPawsRuntimeRpcReadTask _readSumTask;\n\n  void disconnect() {\n    _scheduler.disconnect(_readPrintHelloWorldTask);\n    _scheduler.disconnect(_readHelloWorldTask);\n    _scheduler.disconnect(_readSayHelloTask);\n    _scheduler.disconnect(_readSumTask);\n  }\n\n  void _connectPrintHelloWorld() {\n    _readPrintHelloWorldTask = _scheduler.read(\n      _scopeId,\n      0,\n      TechPawsRuntimeRpcMethodBuffer.client,\n      (reader) {\n        final status = reader.readInt8();\n\n        if (status != TechPawsRpcBufferStatus.hasData.value) {\n          return;\n        }\n\n        final methodId = reader.readInt64();\n\n        _printHelloWorldCompleters[methodId]?.complete();\n        _printHelloWorldCompleters.remove(methodId);\n      },\n    );\n  }\n\n  Future<void> printHelloWorld() {\n    final methodId = _lastPrintHelloWorldMethodId;\n    _lastPrintHelloWorldMethodId = rotateMethodId(_lastPrintHelloWorldMethodId);\n\n    _scheduler.write(\n      _scopeId,\n      0,\n      TechPawsRuntimeRpcMethodBuffer.server,\n      (writer) {\n        writer.writeInt8(TechPawsRpcBufferStatus.hasData.value);\n        writer.writeInt64(methodId);\n      },\n    );\n\n    final completer = Completer<void>();\n    _printHelloWorldCompleters[methodId] = completer;\n\n    return completer.future;\n  }\n\n  void _connectHelloWorld() {\n    _readHelloWorldTask = _scheduler.read(\n      _scopeId,\n      1,\n      TechPawsRuntimeRpcMethodBuffer.client,\n      (reader) {\n        final status = reader.readInt8();\n\n        if (status != TechPawsRpcBufferStatus.hasData.value) {\n          return;\n        }\n\n        final methodId = reader.readInt64();\n        final result = const StringIntoBuffers().read(reader);\n\n        _helloWorldCompleters[methodId]?.complete(result);\n        _helloWorldCompleters.remove(methodId);\n      },\n    );\n  }\n\n  Future<String> helloWorld() {\n    final methodId = _lastHelloWorldMethodId;\n    _lastHelloWorldMethodId = rotateMethodId(_lastHelloWorldMethodId);\n\n    _scheduler.write(\n      _scopeId,\n      1,\n      TechPawsRuntimeRpcMethodBuffer.server,\n      (writer) {\n        writer.writeInt8(TechPawsRpcBufferStatus.hasData.value);\n        writer.writeInt64(methodId);\n      },\n    );\n\n    final completer = Completer<String>();\n    _helloWorldCompleters[methodId] = completer;\n\n    return completer.future;\n  }\n\n  void _connectSayHello() {\n    _readSayHelloTask = _scheduler.read(\n      _scopeId,\n      2,\n      TechPawsRuntimeRpcMethodBuffer.client,\n      (reader) {\n        final status = reader.readInt8();\n\n        if (status != TechPawsRpcBufferStatus.hasData.value) {\n          return;\n        }\n\n        final methodId = reader.readInt64();\n        final result = const StringIntoBuffers().read(reader);\n\n        _sayHelloCompleters[methodId]?.complete(result);\n        _sayHelloCompleters.remove(methodId);\n      },\n    );\n  }\n\n  Future<String> sayHello({\n    required String name,\n  }) {\n    final methodId = _lastSayHelloMethodId;\n    _lastSayHelloMethodId = rotateMethodId(_lastSayHelloMethodId);\n\n    _scheduler.write(\n      _scopeId,\n      2,\n      TechPawsRuntimeRpcMethodBuffer.server,\n      (writer) {\n        writer.writeInt8(TechPawsRpcBufferStatus.hasData.value);\n        writer.writeInt64(methodId);\n        const StringIntoBuffers().write(writer, name);\n      },\n    );\n\n    final completer = Completer<String>();\n    _sayHelloCompleters[methodId] = completer;\n\n    return completer.future;\n  }\n\n  void _connectSum() {\n    _readSumTask = _scheduler.read(\n      _scopeId,\n      3,\n      TechPawsRuntimeRpcMethodBuffer.client,\n      (reader) {\n        final status = reader.readInt8();\n\n        if (status != TechPawsRpcBufferStatus.hasData.value) {\n          return;\n        }\n\n        final methodId = reader.readInt64();\n        final result = reader.readDouble();\n\n        _sumCompleters[methodId]?.complete(result);\n        _sumCompleters.remove(methodId);\n      },\n    );\n  }\n\n  Future<double> sum({\n    required int a,\n    required double b,\n    required double c,\n  }) {\n    final methodId = _lastSumMethodId;\n    _lastSumMethodId = rotateMethodId(_lastSumMethodId);\n\n    _scheduler.write(\n      _scopeId,\n      3,\n      TechPawsRuntimeRpcMethodBuffer.server,\n      (writer) {\n        writer.writeInt8(TechPawsRpcBufferStatus.hasData.value);\n        writer.writeInt64(methodId);\n        writer.writeInt32(a);\n        writer.writeFloat(b);\n        writer.writeDouble(c);\n      },\n    );\n\n    final completer = Completer<double>();\n    _sumCompleters[methodId] = completer;\n\n    return completer.future;\n  }\n}\n"
#guard run src_rpc_read_methods_tpb (fun ast => DartGen.rpcMethods testExt ast)
  "class ExamplesReadRpcClient {\n  ExamplesReadRpcClient(this._scheduler) {\n    _connectCounter();\n    _connectTheme();\n    _connectAsyncTrigger();\n    _connectAsyncHelloRead();\n  }\n\n  final TechPawsRuntimeRpcScheduler _scheduler;\n  static const _scopeId = '723ca727-6a66-43a7-bfcc-b8ad94eac9be';\n\n  late final TechPawsRuntimeRpcReadTask _readCounterTask;\n  final _readCounterStreamController = StreamController<void>.broadcast();\n\n  late final TechPawsRuntimeRpcReadTask _readThemeTask;\n  final _readThemeStreamController = StreamController<String>.broadcast();\n\n  late final TechPawsRuntimeRpcReadTask _readAsyncTriggerTask;\n  final _readAsyncTriggerStreamController = StreamController<void>.broadcast();\n\n  late final TechPawsRuntimeRpcReadTask _readAsyncHelloReadTask;\n  final _readAsyncHelloReadStreamController = StreamController<String>.broadcast();\n\n  Stream<void> get counter => _readCounterStreamController.stream;\n\n  Stream<String> get theme => _readThemeStreamController.stream;\n\n  Stream<void> get asyncTrigger => _readAsyncTriggerStreamController.stream;\n\n  Stream<String> get asyncHelloRead => _readAsyncHelloReadStreamController.stream;\n\n  void disconnect() {\n    _scheduler.disconnect(_readCounterTask);\n    _readCounterStreamController.close();\n    _scheduler.disconnect(_readThemeTask);\n    _readThemeStreamController.close();\n    _scheduler.disconnect(_readAsyncTriggerTask);\n    _readAsyncTriggerStreamController.close();\n    _scheduler.disconnect(_readAsyncHelloReadTask);\n    _readAsyncHelloReadStreamController.close();\n  }\n\n  void _connectCounter() {\n    _readCounterTask = _scheduler.read(\n      _scopeId,\n      0,\n      TechPawsRuntimeRpcMethodBuffer.client,\n      (reader) {\n        final status = reader.readInt8();\n\n        if (status != TechPawsRpcBufferStatus.hasData.value) {\n          return;\n        }\n\n        _readCounterStreamController.add(null);\n      },\n    );\n  }\n\n  void _connectTheme() {\n    _readThemeTask = _scheduler.read(\n      _scopeId,\n      1,\n      TechPawsRuntimeRpcMethodBuffer.client,\n      (reader) {\n        final status = reader.readInt8();\n\n        if (status != TechPawsRpcBufferStatus.hasData.value) {\n          return;\n        }\n\n        final result = const StringIntoBuffers().read(reader);\n        _readThemeStreamController.add(result);\n      },\n    );\n  }\n\n  void _connectAsyncTrigger() {\n    _readAsyncTriggerTask = _scheduler.read(\n      _scopeId,\n      2,\n      TechPawsRuntimeRpcMethodBuffer.client,\n      (reader) {\n        final status = reader.readInt8();\n\n        if (status != TechPawsRpcBufferStatus.hasData.value) {\n          return;\n        }\n\n        _readAsyncTriggerStreamController.add(null);\n      },\n    );\n  }\n\n  void _connectAsyncHelloRead() {\n    _readAsyncHelloReadTask = _scheduler.read(\n      _scopeId,\n      3,\n      TechPawsRuntimeRpcMethodBuffer.client,\n      (reader) {\n        final status = reader.readInt8();\n\n        if (status != TechPawsRpcBufferStatus.hasData.value) {\n          return;\n        }\n\n        final result = const StringIntoBuffers().read(reader);\n        _readAsyncHelloReadStreamController.add(result);\n      },\n    );\n  }\n}\n"
#guard run src_consts_tpb (fun ast => .ok (DartGen.consts testExt ast))
  "const commands = _Commands();\nconst addr = _Addr();\n\nclass _Commands {\n  const _Commands();\n\n  final int drawLines = 131073;\n  final int drawPath = 131074;\n  final int drawQuads = 131075;\n  final int drawCenteredQuads = 131076;\n  final int drawTexts = 131077;\n  final int setColorPipeline = 131078;\n  final int setTexturePipeline = 131079;\n  final int drawCircles = 131080;\n  final int drawHollowCircles = 131081;\n}\n\nclass _Addr {\n  const _Addr();\n\n  final String someValue = \"Hello World!\";\n  final groups = const _AddrGroups();\n  final double deltaTime = 16.6;\n  final bool flag = true;\n  final commandsBuffers = const _AddrCommandsBuffers();\n}\n\nclass _AddrGroups {\n  const _AddrGroups();\n\n  final int main = 0;\n  final int mainRender = 1;\n  final int rpc = 2;\n  final int rpcSync = 3;\n  final int rpcRead = 4;\n}\n\nclass _AddrCommandsBuffers {\n  const _AddrCommandsBuffers();\n\n  final int win1MainRender = 0;\n}\n"
#guard run src_rpc_methods_tpb (fun ast => DartGen.rpcMethods testExt ast)
  "class TestRpcClient {\n  TestRpcClient(this._scheduler) {\n    _connectPrintHelloWorldAsync();\n    _connectHelloWorldAsync();\n    _connectSayHelloAsync();\n    _connectSumAsync();\n    _connectTrigger();\n    _connectTheme();\n    _connectTriggerAsync();\n    _connectThemeAsync();\n  }\n\n  final TechPawsRuntimeRpcScheduler _scheduler;\n  static const _scopeId = '4de616f8-12c5-4d2c-8d48-9c5fb038991f';\n\n  int _lastPrintHelloWorldAsyncMethodId = 0;\n  final _printHelloWorldAsyncCompleters = <int, Completer<void>>{};\n  late final TechPawsRuntimeRpcReadTask _readPrintHelloWorldAsyncTask;\n\n  int _lastHelloWorldAsyncMethodId = 0;\n  final _helloWorldAsyncCompleters = <int, Completer<String>>{};\n  late final TechPawsRuntimeRpcReadTask _readHelloWorldAsyncTask;\n\n  int _lastSayHelloAsyncMethodId = 0;\n  final _sayHelloAsyncCompleters = <int, Completer<String>>{};\n  late final TechPawsRuntimeRpcReadTask _readSayHelloAsyncTask;\n\n  int _lastSumAsyncMethodId = 0;\n  final _sumAsyncCompleters = <int, Completer<double>>{};\n  late final TechPawsRuntimeRpcReadTask _readSumAsyncTask;\n\n  late final TechPawsRuntimeRpcReadTask _readTriggerTask;\n  final _readTriggerStreamController = StreamController<void>.broadcast();\n\n  late final TechPawsRuntimeRpcReadTask _readThemeTask;\n  final _readThemeStreamController = StreamController<Theme>.broadcast();\n\n  late final TechPawsRuntimeRpcReadTask _readTriggerAsyncTask;\n  final _readTriggerAsyncStreamController = StreamController<void>.broadcast();\n\n  late final TechPawsRuntimeRpcReadTask _readThemeAsyncTask;\n  final _readThemeAsyncStreamController = StreamController<Theme>.broadcast();\n\n  Stream<void> get trigger => _readTriggerStreamController.stream;\n\n  Stream<Theme> get theme => _readThemeStreamController.stream;\n\n  Stream<void> get triggerAsync => _readTriggerAsyncStreamController.stream;\n\n  Stream<Theme> get themeAsync => _readThemeAsyncStreamController.stream;\n\n  void disconnect() {\n    _scheduler.disconnect(_readPrintHelloWorldAsyncTask);\n    _scheduler.disconnect(_readHelloWorldAsyncTask);\n    _scheduler.disconnect(_readSayHelloAsyncTask);\n    _scheduler.disconnect(_readSumAsyncTask);\n    _scheduler.disconnect(_readTriggerTask);\n    _readTriggerStreamController.close();\n    _scheduler.disconnect(_readThemeTask);\n    _readThemeStreamController.close();\n    _scheduler.disconnect(_readTriggerAsyncTask);\n    _readTriggerAsyncStreamController.close();\n    _scheduler.disconnect(_readThemeAsyncTask);\n    _readThemeAsyncStreamController.close();\n  }\n\n  void printHelloWorld() {\n    _scheduler.syncWrite(\n      _scopeId,\n      0,\n      TechPawsRuntimeRpcMethodBuffer.server,\n      (writer) {\n        writer.writeInt8(TechPawsRpcBufferStatus.hasData.value);\n      },\n    );\n\n    _scheduler.loopSyncGroup();\n\n  }\n\n  String helloWorld() {\n    _scheduler.syncWrite(\n      _scopeId,\n      1,\n      TechPawsRuntimeRpcMethodBuffer.server,\n      (writer) {\n        writer.writeInt8(TechPawsRpcBufferStatus.hasData.value);\n      },\n    );\n\n    _scheduler.loopSyncGroup();\n\n    final result = _scheduler.syncRead<String>(\n      _scopeId,\n      1,\n      TechPawsRuntimeRpcMethodBuffer.client,\n      (reader) {\n        final status = reader.readInt8();\n\n        if (status != TechPawsRpcBufferStatus.hasData.value) {\n          throw StateError('No data');\n        }\n\n        return const StringIntoBuffers().read(reader);\n      },\n    );\n\n    return result;\n  }\n\n  String sayHello({\n    required String name,\n  }) {\n    _scheduler.syncWrite(\n      _scopeId,\n      2,\n      TechPawsRuntimeRpcMethodBuffer.server,\n      (writer) {\n        writer.writeInt8(TechPawsRpcBufferStatus.hasData.value);\n        const StringIntoBuffers().write(writer, name);\n      },\n    );\n\n    _scheduler.loopSyncGroup();\n\n    final result = _scheduler.syncRead<String>(\n      _scopeId,\n      2,\n      TechPawsRuntimeRpcMethodBuffer.client,\n      (reader) {\n        final status = reader.readInt8();\n\n        if (status != TechPawsRpcBufferStatus.hasData.value) {\n          throw StateError('No data');\n        }\n\n        return const StringIntoBuffers().read(reader);\n      },\n    );\n\n    return result;\n  }\n\n  void sum({\n    required int a,\n    required double b,\n    required double c,\n  }) {\n    _scheduler.syncWrite(\n      _scopeId,\n      3,\n      TechPawsRuntimeRpcMethodBuffer.server,\n      (writer) {\n        writer.writeInt8(TechPawsRpcBufferStatus.hasData.value);\n        writer.writeInt32(a);\n        writer.writeFloat(b);\n        writer.writeDouble(c);\n      },\n    );\n\n    _scheduler.loopSyncGroup();\n\n  }\n\n  void _connectPrintHelloWorldAsync() {\n    _readPrintHelloWorldAsyncTask = _scheduler.read(\n      _scopeId,\n      4,\n      TechPawsRuntimeRpcMethodBuffer.client,\n      (reader) {\n        final status = reader.readInt8();\n\n        if (status != TechPawsRpcBufferStatus.hasData.value) {\n          return;\n        }\n\n        final methodId = reader.readInt64();\n\n        _printHelloWorldAsyncCompleters[methodId]?.complete();\n        _printHelloWorldAsyncCompleters.remove(methodId);\n      },\n    );\n  }\n\n  Future<void> printHelloWorldAsync() {\n    final methodId = _lastPrintHelloWorldAsyncMethodId;\n    _lastPrintHelloWorldAsyncMethodId = rotateMethodId(_lastPrintHelloWorldAsyncMethodId);\n\n    _scheduler.write(\n      _scopeId,\n      4,\n      TechPawsRuntimeRpcMethodBuffer.server,\n      (writer) {\n        writer.writeInt8(TechPawsRpcBufferStatus.hasData.value);\n        writer.writeInt64(methodId);\n      },\n    );\n\n    final completer = Completer<void>();\n    _printHelloWorldAsyncCompleters[methodId] = completer;\n\n    return completer.future;\n  }\n\n  void _connectHelloWorldAsync() {\n    _readHelloWorldAsyncTask = _scheduler.read(\n      _scopeId,\n      5,\n      TechPawsRuntimeRpcMethodBuffer.client,\n      (reader) {\n        final status = reader.readInt8();\n\n        if (status != TechPawsRpcBufferStatus.hasData.value) {\n          return;\n        }\n\n        final methodId = reader.readInt64();\n        final result = const StringIntoBuffers().read(reader);\n\n        _helloWorldAsyncCompleters[methodId]?.complete(result);\n        _helloWorldAsyncCompleters.remove(methodId);\n      },\n    );\n  }\n\n  Future<String> helloWorldAsync() {\n    final methodId = _lastHelloWorldAsyncMethodId;\n    _lastHelloWorldAsyncMethodId = rotateMethodId(_lastHelloWorldAsyncMethodId);\n\n    _scheduler.write(\n      _scopeId,\n      5,\n      TechPawsRuntimeRpcMethodBuffer.server,\n      (writer) {\n        writer.writeInt8(TechPawsRpcBufferStatus.hasData.value);\n        writer.writeInt64(methodId);\n      },\n    );\n\n    final completer = Completer<String>();\n    _helloWorldAsyncCompleters[methodId] = completer;\n\n    return completer.future;\n  }\n\n  void _connectSayHelloAsync() {\n    _readSayHelloAsyncTask = _scheduler.read(\n      _scopeId,\n      6,\n      TechPawsRuntimeRpcMethodBuffer.client,\n      (reader) {\n        final status = reader.readInt8();\n\n        if (status != TechPawsRpcBufferStatus.hasData.value) {\n          return;\n        }\n\n        final methodId = reader.readInt64();\n        final result = const StringIntoBuffers().read(reader);\n\n        _sayHelloAsyncCompleters[methodId]?.complete(result);\n        _sayHelloAsyncCompleters.remove(methodId);\n      },\n    );\n  }\n\n  Future<String> sayHelloAsync({\n    required String name,\n  }) {\n    final methodId = _lastSayHelloAsyncMethodId;\n    _lastSayHelloAsyncMethodId = rotateMethodId(_lastSayHelloAsyncMethodId);\n\n    _scheduler.write(\n      _scopeId,\n      6,\n      TechPawsRuntimeRpcMethodBuffer.server,\n      (writer) {\n        writer.writeInt8(TechPawsRpcBufferStatus.hasData.value);\n        writer.writeInt64(methodId);\n        const StringIntoBuffers().write(writer, name);\n      },\n    );\n\n    final completer = Completer<String>();\n    _sayHelloAsyncCompleters[methodId] = completer;\n\n    return completer.future;\n  }\n\n  void _connectSumAsync() {\n    _readSumAsyncTask = _scheduler.read(\n      _scopeId,\n      7,\n      TechPawsRuntimeRpcMethodBuffer.client,\n      (reader) {\n        final status = reader.readInt8();\n\n        if (status != TechPawsRpcBufferStatus.hasData.value) {\n          return;\n        }\n\n        final methodId = reader.readInt64();\n        final result = reader.readDouble();\n\n        _sumAsyncCompleters[methodId]?.complete(result);\n        _sumAsyncCompleters.remove(methodId);\n      },\n    );\n  }\n\n  Future<double> sumAsync({\n    required int a,\n    required double b,\n    required double c,\n  }) {\n    final methodId = _lastSumAsyncMethodId;\n    _lastSumAsyncMethodId = rotateMethodId(_lastSumAsyncMethodId);\n\n    _scheduler.write(\n      _scopeId,\n      7,\n      TechPawsRuntimeRpcMethodBuffer.server,\n      (writer) {\n        writer.writeInt8(TechPawsRpcBufferStatus.hasData.value);\n        writer.writeInt64(methodId);\n        writer.writeInt32(a);\n        writer.writeFloat(b);\n        writer.writeDouble(c);\n      },\n    );\n\n    final completer = Completer<double>();\n    _sumAsyncCompleters[methodId] = completer;\n\n    return completer.future;\n  }\n\n  void _connectTrigger() {\n    _readTriggerTask = _scheduler.read(\n      _scopeId,\n      8,\n      TechPawsRuntimeRpcMethodBuffer.client,\n      (reader) {\n        final status = reader.readInt8();\n\n        if (status != TechPawsRpcBufferStatus.hasData.value) {\n          return;\n        }\n\n        _readTriggerStreamController.add(null);\n      },\n    );\n  }\n\n  void _connectTheme() {\n    _readThemeTask = _scheduler.read(\n      _scopeId,\n      9,\n      TechPawsRuntimeRpcMethodBuffer.client,\n      (reader) {\n        final status = reader.readInt8();\n\n        if (status != TechPawsRpcBufferStatus.hasData.value) {\n          return;\n        }\n\n        final result = const ThemeIntoBuffers().read(reader);\n        _readThemeStreamController.add(result);\n      },\n    );\n  }\n\n  void _connectTriggerAsync() {\n    _readTriggerAsyncTask = _scheduler.read(\n      _scopeId,\n      10,\n      TechPawsRuntimeRpcMethodBuffer.client,\n      (reader) {\n        final status = reader.readInt8();\n\n        if (status != TechPawsRpcBufferStatus.hasData.value) {\n          return;\n        }\n\n        _readTriggerAsyncStreamController.add(null);\n      },\n    );\n  }\n\n  void _connectThemeAsync() {\n    _readThemeAsyncTask = _scheduler.read(\n      _scopeId,\n      11,\n      TechPawsRuntimeRpcMethodBuffer.client,\n      (reader) {\n        final status = reader.readInt8();\n\n        if (status != TechPawsRpcBufferStatus.hasData.value) {\n          return;\n        }\n\n        final result = const ThemeIntoBuffers().read(reader);\n        _readThemeAsyncStreamController.add(result);\n      },\n    );\n  }\n}\n"

end TPB.Tests
