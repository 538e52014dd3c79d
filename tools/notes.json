{}
